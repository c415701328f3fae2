import Verif.Coef.Model
/-!
# The factors in the operator recalculation tables, class QST

Generated by `scripts/gen_factors.py` from `c++/symmetry/coefnew/*/*.dat`.  The position of
an expression is the number `k` of `Verif.Oper.OpRow`.  `var i` is the quantum number at
position `i` of the label.  Decimal numbers are read as the fraction with a denominator up to
100 they stand for (`1.6666666666666667` as 5/3).
-/

namespace Verif.Coef

set_option maxRecDepth 20000 in
/-- The factors of class `QST`. -/
def factors_QST : List Ex := [
  .num 1 1,
  .div (.mul (.neg (.num 2 1)) (.sqrt (.mul (.var 1) (.add (.num 1 1) (.var 1))))) (.add (.num 1 1) (.mul (.num 2 1) (.var 1))),
  .div (.mul (.neg (.num 2 1)) (.sqrt (.mul (.var 1) (.add (.num 1 1) (.var 1))))) (.add (.var 2) (.mul (.mul (.num 2 1) (.var 1)) (.var 2))),
  .div (.mul (.neg (.num 2 1)) (.sqrt (.mul (.var 1) (.add (.num 1 1) (.var 1))))) (.mul (.add (.num 1 1) (.mul (.num 2 1) (.var 2))) (.add (.var 2) (.mul (.mul (.num 2 1) (.var 1)) (.var 2)))),
  .mul (.mul (.neg (.num 2 1)) (.sqrt (.div (.add (.num 1 1) (.var 1)) (.add (.add (.add (.num 1 1) (.mul (.num 2 1) (.var 1))) (.var 2)) (.mul (.mul (.num 2 1) (.var 1)) (.var 2)))))) (.add (.add (.neg (.sqrt (.div (.var 1) (.mul (.add (.num 1 1) (.mul (.num 2 1) (.var 1))) (.add (.neg (.num 1 1)) (.var 2)))))) (.sqrt (.div (.mul (.var 1) (.add (.neg (.num 1 1)) (.var 2))) (.mul (.add (.num 1 1) (.mul (.num 2 1) (.var 1))) (.pow (.var 2) 2))))) (.mul (.sqrt (.div (.var 1) (.mul (.add (.num 1 1) (.mul (.num 2 1) (.var 1))) (.add (.neg (.num 1 1)) (.var 2))))) (.var 2))),
  .div (.mul (.neg (.num 2 1)) (.sqrt (.div (.mul (.mul (.var 1) (.add (.num 1 1) (.var 1))) (.add (.neg (.num 1 1)) (.mul (.num 2 1) (.var 2)))) (.add (.num 1 1) (.mul (.num 2 1) (.var 2)))))) (.add (.var 2) (.mul (.mul (.num 2 1) (.var 1)) (.var 2))),
  .div (.mul (.neg (.num 2 1)) (.add (.add (.sqrt (.div (.mul (.var 1) (.add (.neg (.num 1 1)) (.mul (.num 2 1) (.var 2)))) (.mul (.add (.num 1 1) (.mul (.num 2 1) (.var 1))) (.add (.num 1 1) (.var 2))))) (.sqrt (.div (.mul (.var 1) (.add (.neg (.num 1 1)) (.mul (.num 2 1) (.var 2)))) (.mul (.mul (.add (.num 1 1) (.mul (.num 2 1) (.var 1))) (.add (.num 1 1) (.var 2))) (.pow (.add (.num 1 1) (.mul (.num 2 1) (.var 2))) 2))))) (.sqrt (.div (.mul (.var 1) (.add (.add (.neg (.num 1 1)) (.var 2)) (.mul (.num 2 1) (.pow (.var 2) 2)))) (.add (.num 1 1) (.mul (.num 2 1) (.var 1))))))) (.sqrt (.div (.mul (.mul (.add (.num 1 1) (.mul (.num 2 1) (.var 1))) (.add (.num 1 1) (.var 2))) (.add (.num 3 1) (.mul (.num 2 1) (.var 2)))) (.add (.num 1 1) (.var 1)))),
  .div (.num 1 1) (.add (.num 1 1) (.mul (.num 2 1) (.var 1))),
  .div (.num 1 1) (.add (.var 2) (.mul (.mul (.num 2 1) (.var 1)) (.var 2))),
  .div (.num 1 1) (.mul (.add (.num 1 1) (.mul (.num 2 1) (.var 2))) (.add (.var 2) (.mul (.mul (.num 2 1) (.var 1)) (.var 2)))),
  .neg (.num 1 1),
  .neg (.div (.num 1 1) (.var 2)),
  .neg (.div (.num 1 1) (.add (.var 2) (.mul (.num 2 1) (.pow (.var 2) 2)))),
  .div (.sqrt (.add (.neg (.num 1 1)) (.pow (.var 2) 2))) (.add (.var 2) (.mul (.mul (.num 2 1) (.var 1)) (.var 2))),
  .div (.sqrt (.sub (.num 1 1) (.div (.num 2 1) (.add (.num 1 1) (.mul (.num 2 1) (.var 2)))))) (.add (.var 2) (.mul (.mul (.num 2 1) (.var 1)) (.var 2))),
  .neg (.div (.sqrt (.add (.neg (.num 1 1)) (.pow (.var 2) 2))) (.var 2)),
  .neg (.div (.sqrt (.sub (.num 1 1) (.div (.num 2 1) (.add (.num 1 1) (.mul (.num 2 1) (.var 2)))))) (.var 2)),
  .div (.sqrt (.add (.neg (.num 3 1)) (.mul (.mul (.num 4 1) (.var 2)) (.add (.num 1 1) (.var 2))))) (.mul (.add (.num 1 1) (.mul (.num 2 1) (.var 1))) (.add (.num 1 1) (.mul (.num 2 1) (.var 2)))),
  .neg (.div (.sqrt (.add (.neg (.num 3 1)) (.mul (.mul (.num 4 1) (.var 2)) (.add (.num 1 1) (.var 2))))) (.add (.num 1 1) (.mul (.num 2 1) (.var 2)))),
  .div (.sqrt (.num 2 1)) (.sqrt (.mul (.add (.neg (.num 1 1)) (.var 2)) (.var 2))),
  .div (.sqrt (.num 6 1)) (.sqrt (.mul (.mul (.mul (.add (.neg (.num 1 1)) (.var 2)) (.var 2)) (.add (.neg (.num 1 1)) (.mul (.num 2 1) (.var 2)))) (.add (.num 1 1) (.mul (.num 2 1) (.var 2))))),
  .div (.mul (.add (.num 1 1) (.var 2)) (.sqrt (.div (.mul (.add (.neg (.num 2 1)) (.var 2)) (.var 2)) (.add (.neg (.num 1 1)) (.pow (.var 2) 2))))) (.var 2),
  .div (.mul (.add (.num 1 1) (.var 2)) (.sqrt (.add (.sub (.num 3 1) (.div (.num 30 1) (.add (.num 1 1) (.var 2)))) (.div (.num 36 1) (.add (.num 1 1) (.mul (.num 2 1) (.var 2))))))) (.mul (.add (.neg (.num 1 1)) (.var 2)) (.var 2)),
  .div (.num 3 1) (.add (.var 2) (.mul (.num 2 1) (.pow (.var 2) 2))),
  .div (.add (.sub (.num 9 1) (.mul (.num 13 1) (.pow (.var 2) 2))) (.mul (.num 4 1) (.pow (.var 2) 4))) (.mul (.var 2) (.sqrt (.add (.neg (.num 9 1)) (.mul (.pow (.var 2) 2) (.pow (.sub (.num 7 1) (.mul (.num 4 1) (.pow (.var 2) 2))) 2))))),
  .div (.mul (.sqrt (.num 3 1)) (.add (.add (.neg (.num 3 1)) (.var 2)) (.mul (.num 2 1) (.pow (.var 2) 2)))) (.mul (.var 2) (.sqrt (.mul (.mul (.mul (.add (.neg (.num 1 1)) (.var 2)) (.add (.num 1 1) (.var 2))) (.add (.num 1 1) (.mul (.num 2 1) (.var 2)))) (.add (.num 3 1) (.mul (.num 2 1) (.var 2)))))),
  .div (.sqrt (.num 6 1)) (.sqrt (.mul (.mul (.mul (.var 2) (.add (.num 1 1) (.var 2))) (.add (.num 1 1) (.mul (.num 2 1) (.var 2)))) (.add (.num 3 1) (.mul (.num 2 1) (.var 2))))),
  .div (.add (.add (.sub (.add (.sub (.mul (.num 6 1) (.sqrt (.div (.mul (.mul (.mul (.mul (.add (.neg (.num 1 1)) (.var 2)) (.var 2)) (.add (.num 2 1) (.var 2))) (.add (.neg (.num 1 1)) (.mul (.num 2 1) (.var 2)))) (.add (.num 3 1) (.mul (.num 2 1) (.var 2)))) (.add (.num 1 1) (.mul (.num 2 1) (.var 2)))))) (.mul (.num 9 1) (.sqrt (.div (.mul (.mul (.mul (.pow (.var 2) 3) (.add (.num 2 1) (.var 2))) (.add (.neg (.num 1 1)) (.mul (.num 2 1) (.var 2)))) (.add (.num 3 1) (.mul (.num 2 1) (.var 2)))) (.mul (.add (.neg (.num 1 1)) (.var 2)) (.add (.num 1 1) (.mul (.num 2 1) (.var 2)))))))) (.mul (.num 9 1) (.sqrt (.div (.mul (.mul (.mul (.pow (.var 2) 5) (.add (.num 2 1) (.var 2))) (.add (.neg (.num 1 1)) (.mul (.num 2 1) (.var 2)))) (.add (.num 3 1) (.mul (.num 2 1) (.var 2)))) (.mul (.add (.neg (.num 1 1)) (.var 2)) (.add (.num 1 1) (.mul (.num 2 1) (.var 2)))))))) (.mul (.num 4 1) (.sqrt (.div (.mul (.mul (.mul (.mul (.pow (.var 2) 3) (.add (.num 2 1) (.var 2))) (.add (.neg (.num 1 1)) (.mul (.num 2 1) (.var 2)))) (.add (.num 1 1) (.mul (.num 2 1) (.var 2)))) (.add (.num 3 1) (.mul (.num 2 1) (.var 2)))) (.add (.neg (.num 1 1)) (.var 2)))))) (.mul (.num 3 1) (.sqrt (.div (.mul (.mul (.mul (.mul (.pow (.var 2) 5) (.add (.num 2 1) (.var 2))) (.add (.neg (.num 1 1)) (.mul (.num 2 1) (.var 2)))) (.add (.num 1 1) (.mul (.num 2 1) (.var 2)))) (.add (.num 3 1) (.mul (.num 2 1) (.var 2)))) (.add (.neg (.num 1 1)) (.var 2)))))) (.sqrt (.div (.mul (.mul (.mul (.mul (.pow (.var 2) 7) (.add (.num 2 1) (.var 2))) (.add (.neg (.num 1 1)) (.mul (.num 2 1) (.var 2)))) (.add (.num 1 1) (.mul (.num 2 1) (.var 2)))) (.add (.num 3 1) (.mul (.num 2 1) (.var 2)))) (.add (.neg (.num 1 1)) (.var 2))))) (.mul (.mul (.mul (.mul (.var 2) (.hpow (.add (.num 1 1) (.var 2)) 1)) (.add (.num 2 1) (.var 2))) (.sqrt (.add (.num 1 1) (.mul (.num 2 1) (.var 2))))) (.add (.num 3 1) (.mul (.num 2 1) (.var 2)))),
  .sqrt (.div (.add (.neg (.num 2 1)) (.mul (.num 4 1) (.var 2))) (.add (.add (.var 2) (.mul (.num 3 1) (.pow (.var 2) 2))) (.mul (.num 2 1) (.pow (.var 2) 3)))),
  .mul (.add (.num 5 1) (.mul (.num 2 1) (.var 2))) (.sqrt (.div (.add (.neg (.num 1 1)) (.mul (.num 2 1) (.var 2))) (.add (.add (.add (.num 15 1) (.mul (.num 46 1) (.var 2))) (.mul (.num 36 1) (.pow (.var 2) 2))) (.mul (.num 8 1) (.pow (.var 2) 3))))),
  .mul (.add (.neg (.num 1 1)) (.mul (.num 2 1) (.var 1))) (.sqrt (.neg (.div (.add (.num 1 1) (.var 1)) (.sub (.var 1) (.mul (.num 4 1) (.pow (.var 1) 3)))))),
  .div (.mul (.add (.neg (.num 1 1)) (.mul (.num 2 1) (.var 1))) (.sqrt (.neg (.div (.add (.num 1 1) (.var 1)) (.sub (.var 1) (.mul (.num 4 1) (.pow (.var 1) 3))))))) (.var 2),
  .div (.num 1 1) (.sqrt (.div (.mul (.mul (.var 1) (.add (.num 1 1) (.mul (.num 2 1) (.var 1)))) (.pow (.add (.var 2) (.mul (.num 2 1) (.pow (.var 2) 2))) 2)) (.add (.add (.neg (.num 1 1)) (.var 1)) (.mul (.num 2 1) (.pow (.var 1) 2))))),
  .div (.sqrt (.div (.mul (.add (.add (.neg (.num 1 1)) (.var 1)) (.mul (.num 2 1) (.pow (.var 1) 2))) (.add (.neg (.num 1 1)) (.pow (.var 2) 2))) (.mul (.var 1) (.add (.num 1 1) (.mul (.num 2 1) (.var 1)))))) (.var 2),
  .div (.mul (.add (.neg (.num 1 1)) (.mul (.num 2 1) (.var 1))) (.sqrt (.div (.mul (.add (.num 1 1) (.var 1)) (.add (.neg (.num 1 1)) (.mul (.num 2 1) (.var 2)))) (.mul (.add (.neg (.var 1)) (.mul (.num 4 1) (.pow (.var 1) 3))) (.add (.num 1 1) (.mul (.num 2 1) (.var 2))))))) (.var 2),
  .div (.add (.add (.add (.mul (.num 2 1) (.sqrt (.div (.mul (.var 2) (.add (.neg (.num 1 1)) (.mul (.num 2 1) (.var 2)))) (.add (.num 1 1) (.var 2))))) (.mul (.mul (.num 2 1) (.var 2)) (.sqrt (.div (.mul (.var 2) (.add (.neg (.num 1 1)) (.mul (.num 2 1) (.var 2)))) (.add (.num 1 1) (.var 2)))))) (.sqrt (.mul (.var 2) (.add (.add (.neg (.num 1 1)) (.var 2)) (.mul (.num 2 1) (.pow (.var 2) 2)))))) (.mul (.num 2 1) (.sqrt (.mul (.pow (.var 2) 3) (.add (.add (.neg (.num 1 1)) (.var 2)) (.mul (.num 2 1) (.pow (.var 2) 2))))))) (.mul (.add (.num 1 1) (.mul (.num 2 1) (.var 2))) (.sqrt (.div (.mul (.mul (.mul (.mul (.var 1) (.add (.num 1 1) (.mul (.num 2 1) (.var 1)))) (.var 2)) (.add (.num 1 1) (.var 2))) (.add (.num 3 1) (.mul (.num 2 1) (.var 2)))) (.add (.add (.neg (.num 1 1)) (.var 1)) (.mul (.num 2 1) (.pow (.var 1) 2)))))),
  .neg (.div (.num 1 1) (.sqrt (.mul (.var 1) (.add (.num 1 1) (.mul (.num 2 1) (.var 1)))))),
  .neg (.div (.num 1 1) (.mul (.sqrt (.mul (.var 1) (.add (.num 1 1) (.mul (.num 2 1) (.var 1))))) (.var 2))),
  .neg (.div (.num 1 1) (.mul (.mul (.sqrt (.mul (.var 1) (.add (.num 1 1) (.mul (.num 2 1) (.var 1))))) (.var 2)) (.add (.num 1 1) (.mul (.num 2 1) (.var 2))))),
  .mul (.add (.num 3 1) (.mul (.num 2 1) (.var 1))) (.sqrt (.div (.var 1) (.add (.add (.add (.num 3 1) (.mul (.num 11 1) (.var 1))) (.mul (.num 12 1) (.pow (.var 1) 2))) (.mul (.num 4 1) (.pow (.var 1) 3))))),
  .mul (.add (.num 3 1) (.mul (.num 2 1) (.var 1))) (.sqrt (.div (.var 1) (.mul (.add (.add (.add (.num 3 1) (.mul (.num 11 1) (.var 1))) (.mul (.num 12 1) (.pow (.var 1) 2))) (.mul (.num 4 1) (.pow (.var 1) 3))) (.pow (.var 2) 2)))),
  .mul (.add (.num 3 1) (.mul (.num 2 1) (.var 1))) (.sqrt (.div (.var 1) (.mul (.add (.add (.add (.num 3 1) (.mul (.num 11 1) (.var 1))) (.mul (.num 12 1) (.pow (.var 1) 2))) (.mul (.num 4 1) (.pow (.var 1) 3))) (.pow (.add (.var 2) (.mul (.num 2 1) (.pow (.var 2) 2))) 2)))),
  .neg (.div (.sqrt (.div (.add (.neg (.num 1 1)) (.pow (.var 2) 2)) (.mul (.var 1) (.add (.num 1 1) (.mul (.num 2 1) (.var 1)))))) (.var 2)),
  .neg (.div (.add (.add (.sub (.neg (.mul (.mul (.mul (.mul (.add (.num 1 1) (.var 1)) (.add (.neg (.num 1 1)) (.mul (.num 2 1) (.var 1)))) (.hpow (.var 2) 2)) (.pow (.add (.num 1 1) (.var 2)) 2)) (.sqrt (.mul (.mul (.var 1) (.add (.num 1 1) (.var 1))) (.add (.neg (.num 1 1)) (.mul (.num 4 1) (.pow (.var 2) 2))))))) (.mul (.mul (.mul (.mul (.add (.num 1 1) (.var 1)) (.add (.neg (.num 1 1)) (.mul (.num 2 1) (.var 1)))) (.var 2)) (.pow (.add (.num 1 1) (.var 2)) 2)) (.sqrt (.mul (.mul (.mul (.var 1) (.add (.num 1 1) (.var 1))) (.var 2)) (.add (.neg (.num 1 1)) (.mul (.num 4 1) (.pow (.var 2) 2))))))) (.mul (.mul (.num 2 1) (.var 1)) (.sqrt (.mul (.mul (.mul (.mul (.var 1) (.pow (.add (.num 1 1) (.var 1)) 3)) (.pow (.var 2) 3)) (.pow (.add (.num 1 1) (.var 2)) 4)) (.add (.neg (.num 1 1)) (.mul (.num 4 1) (.pow (.var 2) 2))))))) (.mul (.mul (.mul (.num 2 1) (.var 1)) (.var 2)) (.sqrt (.mul (.mul (.mul (.mul (.var 1) (.pow (.add (.num 1 1) (.var 1)) 3)) (.pow (.var 2) 3)) (.pow (.add (.num 1 1) (.var 2)) 4)) (.add (.neg (.num 1 1)) (.mul (.num 4 1) (.pow (.var 2) 2))))))) (.mul (.mul (.mul (.mul (.hpow (.add (.num 1 1) (.var 1)) 1) (.sqrt (.add (.num 1 1) (.mul (.num 2 1) (.var 1))))) (.hpow (.var 2) 2)) (.pow (.add (.num 1 1) (.var 2)) 3)) (.add (.var 1) (.mul (.mul (.num 2 1) (.var 1)) (.var 2))))),
  .div (.mul (.sqrt (.add (.neg (.num 1 1)) (.var 2))) (.add (.add (.mul (.mul (.mul (.var 1) (.add (.num 3 1) (.mul (.num 2 1) (.var 1)))) (.var 2)) (.sqrt (.mul (.mul (.mul (.mul (.var 1) (.add (.num 1 1) (.var 1))) (.add (.num 1 1) (.mul (.num 2 1) (.var 1)))) (.add (.num 3 1) (.mul (.num 2 1) (.var 1)))) (.add (.num 1 1) (.var 2))))) (.mul (.num 3 1) (.sqrt (.mul (.mul (.mul (.mul (.pow (.var 1) 3) (.add (.num 1 1) (.var 1))) (.add (.num 1 1) (.mul (.num 2 1) (.var 1)))) (.add (.num 3 1) (.mul (.num 2 1) (.var 1)))) (.add (.num 1 1) (.var 2)))))) (.mul (.num 2 1) (.sqrt (.mul (.mul (.mul (.mul (.pow (.var 1) 5) (.add (.num 1 1) (.var 1))) (.add (.num 1 1) (.mul (.num 2 1) (.var 1)))) (.add (.num 3 1) (.mul (.num 2 1) (.var 1)))) (.add (.num 1 1) (.var 2))))))) (.mul (.mul (.mul (.mul (.var 1) (.add (.num 1 1) (.var 1))) (.add (.num 3 1) (.mul (.mul (.num 4 1) (.var 1)) (.add (.num 2 1) (.var 1))))) (.var 2)) (.add (.num 1 1) (.var 2))),
  .div (.add (.mul (.num 3 1) (.sqrt (.div (.mul (.mul (.pow (.var 1) 3) (.add (.num 1 1) (.var 1))) (.add (.neg (.num 1 1)) (.mul (.num 2 1) (.var 2)))) (.mul (.add (.num 3 1) (.mul (.mul (.num 4 1) (.var 1)) (.add (.num 2 1) (.var 1)))) (.add (.num 1 1) (.mul (.num 2 1) (.var 2))))))) (.mul (.num 2 1) (.sqrt (.div (.mul (.mul (.pow (.var 1) 5) (.add (.num 1 1) (.var 1))) (.add (.neg (.num 1 1)) (.mul (.num 2 1) (.var 2)))) (.mul (.add (.num 3 1) (.mul (.mul (.num 4 1) (.var 1)) (.add (.num 2 1) (.var 1)))) (.add (.num 1 1) (.mul (.num 2 1) (.var 2)))))))) (.mul (.mul (.var 1) (.add (.num 1 1) (.var 1))) (.var 2)),
  .neg (.div (.sqrt (.div (.add (.neg (.num 3 1)) (.mul (.mul (.num 4 1) (.var 2)) (.add (.num 1 1) (.var 2)))) (.mul (.var 1) (.add (.num 1 1) (.mul (.num 2 1) (.var 1)))))) (.add (.num 1 1) (.mul (.num 2 1) (.var 2)))),
  .div (.add (.add (.div (.mul (.mul (.num 4 1) (.var 1)) (.sqrt (.div (.mul (.var 1) (.add (.add (.neg (.num 1 1)) (.var 2)) (.mul (.num 2 1) (.pow (.var 2) 2)))) (.add (.num 3 1) (.mul (.mul (.num 4 1) (.var 1)) (.add (.num 2 1) (.var 1))))))) (.add (.num 1 1) (.mul (.num 2 1) (.var 2)))) (.mul (.num 2 1) (.sqrt (.div (.mul (.pow (.var 1) 3) (.add (.add (.neg (.num 1 1)) (.var 2)) (.mul (.num 2 1) (.pow (.var 2) 2)))) (.add (.num 3 1) (.mul (.mul (.num 4 1) (.var 1)) (.add (.num 2 1) (.var 1)))))))) (.mul (.num 3 1) (.add (.add (.sqrt (.div (.mul (.var 1) (.add (.neg (.num 1 1)) (.mul (.num 2 1) (.var 2)))) (.mul (.add (.num 3 1) (.mul (.mul (.num 4 1) (.var 1)) (.add (.num 2 1) (.var 1)))) (.add (.num 1 1) (.var 2))))) (.sqrt (.div (.mul (.var 1) (.add (.neg (.num 1 1)) (.mul (.num 2 1) (.var 2)))) (.mul (.mul (.add (.num 3 1) (.mul (.mul (.num 4 1) (.var 1)) (.add (.num 2 1) (.var 1)))) (.add (.num 1 1) (.var 2))) (.pow (.add (.num 1 1) (.mul (.num 2 1) (.var 2))) 2))))) (.sqrt (.div (.mul (.var 1) (.add (.add (.neg (.num 1 1)) (.var 2)) (.mul (.num 2 1) (.pow (.var 2) 2)))) (.add (.num 3 1) (.mul (.mul (.num 4 1) (.var 1)) (.add (.num 2 1) (.var 1))))))))) (.sqrt (.mul (.mul (.add (.num 1 1) (.var 1)) (.add (.num 1 1) (.var 2))) (.add (.num 3 1) (.mul (.num 2 1) (.var 2))))),
  .neg (.div (.num 1 1) (.sqrt (.mul (.add (.num 1 1) (.var 1)) (.add (.num 1 1) (.mul (.num 2 1) (.var 1)))))),
  .div (.add (.sub (.neg (.sqrt (.div (.mul (.add (.num 3 1) (.mul (.num 2 1) (.var 1))) (.var 2)) (.add (.num 1 1) (.var 1))))) (.mul (.num 2 1) (.sqrt (.mul (.mul (.add (.num 1 1) (.var 1)) (.add (.num 3 1) (.mul (.num 2 1) (.var 1)))) (.var 2))))) (.mul (.mul (.num 4 1) (.var 1)) (.sub (.add (.sqrt (.div (.mul (.add (.num 3 1) (.mul (.num 2 1) (.var 1))) (.var 2)) (.add (.num 1 1) (.var 1)))) (.mul (.var 1) (.sqrt (.div (.mul (.add (.num 3 1) (.mul (.num 2 1) (.var 1))) (.var 2)) (.add (.num 1 1) (.var 1)))))) (.sqrt (.mul (.mul (.add (.num 1 1) (.var 1)) (.add (.num 3 1) (.mul (.num 2 1) (.var 1)))) (.var 2)))))) (.mul (.mul (.hpow (.add (.num 3 1) (.mul (.num 2 1) (.var 1))) 1) (.var 2)) (.sqrt (.add (.var 2) (.mul (.mul (.num 2 1) (.var 1)) (.var 2))))),
  .neg (.div (.num 1 1) (.mul (.sqrt (.add (.add (.num 1 1) (.mul (.num 3 1) (.var 1))) (.mul (.num 2 1) (.pow (.var 1) 2)))) (.add (.var 2) (.mul (.num 2 1) (.pow (.var 2) 2))))),
  .div (.num 1 1) (.var 2),
  .div (.num 1 1) (.add (.var 2) (.mul (.num 2 1) (.pow (.var 2) 2))),
  .div (.mul (.sub (.mul (.mul (.num 4 1) (.var 1)) (.sqrt (.div (.add (.neg (.num 1 1)) (.var 2)) (.add (.num 1 1) (.mul (.num 2 1) (.var 1)))))) (.mul (.num 3 1) (.sqrt (.mul (.add (.num 1 1) (.mul (.num 2 1) (.var 1))) (.add (.neg (.num 1 1)) (.var 2)))))) (.add (.num 1 1) (.var 2))) (.mul (.mul (.add (.num 3 1) (.mul (.num 2 1) (.var 1))) (.var 2)) (.sqrt (.mul (.add (.num 1 1) (.var 1)) (.add (.num 1 1) (.var 2))))),
  .neg (.div (.sqrt (.div (.add (.neg (.num 1 1)) (.mul (.num 2 1) (.var 2))) (.mul (.add (.add (.num 1 1) (.mul (.num 3 1) (.var 1))) (.mul (.num 2 1) (.pow (.var 1) 2))) (.add (.num 1 1) (.mul (.num 2 1) (.var 2)))))) (.var 2)),
  .div (.sqrt (.add (.neg (.num 1 1)) (.pow (.var 2) 2))) (.var 2),
  .div (.sqrt (.add (.neg (.num 1 1)) (.mul (.num 4 1) (.pow (.var 2) 2)))) (.add (.var 2) (.mul (.num 2 1) (.pow (.var 2) 2))),
  .neg (.div (.sqrt (.div (.add (.neg (.num 3 1)) (.mul (.mul (.num 4 1) (.var 2)) (.add (.num 1 1) (.var 2)))) (.mul (.add (.num 1 1) (.var 1)) (.add (.num 1 1) (.mul (.num 2 1) (.var 1)))))) (.add (.num 1 1) (.mul (.num 2 1) (.var 2)))),
  .div (.add (.add (.sqrt (.mul (.mul (.mul (.add (.num 3 1) (.mul (.num 2 1) (.var 1))) (.add (.num 1 1) (.var 2))) (.add (.neg (.num 1 1)) (.mul (.num 2 1) (.var 2)))) (.add (.num 1 1) (.mul (.num 2 1) (.var 2))))) (.mul (.num 2 1) (.sqrt (.div (.mul (.add (.num 3 1) (.mul (.num 2 1) (.var 1))) (.add (.neg (.num 1 1)) (.mul (.num 4 1) (.pow (.var 2) 2)))) (.add (.num 1 1) (.var 2)))))) (.mul (.mul (.num 2 1) (.var 2)) (.add (.sqrt (.mul (.mul (.mul (.add (.num 3 1) (.mul (.num 2 1) (.var 1))) (.add (.num 1 1) (.var 2))) (.add (.neg (.num 1 1)) (.mul (.num 2 1) (.var 2)))) (.add (.num 1 1) (.mul (.num 2 1) (.var 2))))) (.sqrt (.div (.mul (.add (.num 3 1) (.mul (.num 2 1) (.var 1))) (.add (.neg (.num 1 1)) (.mul (.num 4 1) (.pow (.var 2) 2)))) (.add (.num 1 1) (.var 2))))))) (.mul (.add (.num 1 1) (.mul (.num 2 1) (.var 2))) (.sqrt (.mul (.mul (.mul (.add (.num 3 1) (.mul (.num 2 1) (.var 1))) (.add (.num 1 1) (.var 2))) (.add (.num 1 1) (.mul (.num 2 1) (.var 2)))) (.add (.num 3 1) (.mul (.num 2 1) (.var 2)))))),
  .div (.mul (.mul (.neg (.num 2 1)) (.sqrt (.num 2 1))) (.sqrt (.div (.mul (.var 1) (.add (.num 1 1) (.var 1))) (.mul (.add (.neg (.num 1 1)) (.var 2)) (.var 2))))) (.add (.num 1 1) (.mul (.num 2 1) (.var 1))),
  .mul (.mul (.neg (.num 2 1)) (.sqrt (.num 6 1))) (.sqrt (.div (.mul (.var 1) (.add (.num 1 1) (.var 1))) (.mul (.pow (.add (.num 1 1) (.mul (.num 2 1) (.var 1))) 2) (.add (.sub (.sub (.var 2) (.pow (.var 2) 2)) (.mul (.num 4 1) (.pow (.var 2) 3))) (.mul (.num 4 1) (.pow (.var 2) 4)))))),
  .mul (.mul (.neg (.num 2 1)) (.sqrt (.div (.mul (.add (.num 1 1) (.var 1)) (.add (.neg (.num 1 1)) (.mul (.num 2 1) (.var 2)))) (.mul (.add (.num 1 1) (.mul (.num 2 1) (.var 1))) (.add (.num 1 1) (.var 2)))))) (.add (.mul (.mul (.add (.neg (.num 3 1)) (.var 2)) (.var 2)) (.sqrt (.div (.var 1) (.mul (.mul (.add (.num 1 1) (.mul (.num 2 1) (.var 1))) (.var 2)) (.add (.sub (.add (.neg (.num 2 1)) (.mul (.num 7 1) (.var 2))) (.mul (.num 7 1) (.pow (.var 2) 2))) (.mul (.num 2 1) (.pow (.var 2) 3))))))) (.mul (.num 2 1) (.add (.sqrt (.div (.var 1) (.mul (.mul (.add (.num 1 1) (.mul (.num 2 1) (.var 1))) (.var 2)) (.add (.sub (.add (.neg (.num 2 1)) (.mul (.num 7 1) (.var 2))) (.mul (.num 7 1) (.pow (.var 2) 2))) (.mul (.num 2 1) (.pow (.var 2) 3)))))) (.sqrt (.div (.mul (.var 1) (.add (.neg (.num 2 1)) (.var 2))) (.mul (.add (.num 1 1) (.mul (.num 2 1) (.var 1))) (.add (.sub (.var 2) (.mul (.num 3 1) (.pow (.var 2) 2))) (.mul (.num 2 1) (.pow (.var 2) 3))))))))),
  .div (.mul (.mul (.mul (.neg (.num 2 1)) (.sqrt (.num 3 1))) (.sqrt (.div (.mul (.add (.num 1 1) (.var 1)) (.add (.neg (.num 1 1)) (.mul (.num 2 1) (.var 2)))) (.mul (.add (.num 1 1) (.mul (.num 2 1) (.var 1))) (.add (.num 1 1) (.var 2)))))) (.add (.add (.mul (.num 2 1) (.sqrt (.div (.mul (.var 1) (.add (.neg (.num 3 1)) (.mul (.num 2 1) (.var 2)))) (.mul (.add (.num 1 1) (.mul (.num 2 1) (.var 1))) (.add (.sub (.sub (.num 1 1) (.var 2)) (.mul (.num 4 1) (.pow (.var 2) 2))) (.mul (.num 4 1) (.pow (.var 2) 3))))))) (.mul (.num 3 1) (.sqrt (.div (.var 1) (.mul (.add (.num 1 1) (.mul (.num 2 1) (.var 1))) (.add (.sub (.add (.add (.neg (.num 3 1)) (.mul (.num 5 1) (.var 2))) (.mul (.num 10 1) (.pow (.var 2) 2))) (.mul (.num 20 1) (.pow (.var 2) 3))) (.mul (.num 8 1) (.pow (.var 2) 4)))))))) (.mul (.mul (.var 2) (.add (.neg (.num 5 1)) (.mul (.num 2 1) (.var 2)))) (.sqrt (.div (.var 1) (.mul (.add (.num 1 1) (.mul (.num 2 1) (.var 1))) (.add (.sub (.add (.add (.neg (.num 3 1)) (.mul (.num 5 1) (.var 2))) (.mul (.num 10 1) (.pow (.var 2) 2))) (.mul (.num 20 1) (.pow (.var 2) 3))) (.mul (.num 8 1) (.pow (.var 2) 4))))))))) (.var 2),
  .div (.mul (.neg (.num 6 1)) (.sqrt (.mul (.var 1) (.add (.num 1 1) (.var 1))))) (.mul (.add (.num 1 1) (.mul (.num 2 1) (.var 1))) (.add (.var 2) (.mul (.num 2 1) (.pow (.var 2) 2)))),
  .mul (.mul (.neg (.num 2 1)) (.sqrt (.div (.add (.num 1 1) (.var 1)) (.add (.num 1 1) (.mul (.num 2 1) (.var 1)))))) (.add (.add (.div (.mul (.num 6 1) (.sqrt (.div (.mul (.var 1) (.add (.sub (.num 3 1) (.mul (.num 5 1) (.var 2))) (.mul (.num 2 1) (.pow (.var 2) 2)))) (.mul (.add (.num 1 1) (.mul (.num 2 1) (.var 1))) (.add (.add (.add (.sub (.neg (.num 3 1)) (.mul (.num 5 1) (.var 2))) (.mul (.num 10 1) (.pow (.var 2) 2))) (.mul (.num 20 1) (.pow (.var 2) 3))) (.mul (.num 8 1) (.pow (.var 2) 4))))))) (.var 2)) (.mul (.mul (.num 3 1) (.add (.num 3 1) (.mul (.mul (.num 4 1) (.add (.neg (.num 2 1)) (.var 2))) (.var 2)))) (.sqrt (.div (.mul (.var 1) (.add (.neg (.num 1 1)) (.var 2))) (.mul (.mul (.add (.num 1 1) (.mul (.num 2 1) (.var 1))) (.pow (.var 2) 2)) (.add (.add (.sub (.sub (.add (.num 9 1) (.mul (.num 9 1) (.var 2))) (.mul (.num 40 1) (.pow (.var 2) 2))) (.mul (.num 40 1) (.pow (.var 2) 3))) (.mul (.num 16 1) (.pow (.var 2) 4))) (.mul (.num 16 1) (.pow (.var 2) 5)))))))) (.mul (.mul (.mul (.add (.neg (.num 1 1)) (.var 2)) (.add (.neg (.num 3 1)) (.mul (.num 2 1) (.var 2)))) (.add (.neg (.num 1 1)) (.mul (.num 2 1) (.var 2)))) (.sqrt (.div (.var 1) (.mul (.add (.num 1 1) (.mul (.num 2 1) (.var 1))) (.add (.neg (.num 9 1)) (.mul (.pow (.var 2) 2) (.pow (.sub (.num 7 1) (.mul (.num 4 1) (.pow (.var 2) 2))) 2)))))))),
  .div (.mul (.mul (.mul (.neg (.num 2 1)) (.sqrt (.num 3 1))) (.add (.add (.neg (.num 3 1)) (.var 2)) (.mul (.num 2 1) (.pow (.var 2) 2)))) (.sqrt (.div (.mul (.var 1) (.add (.num 1 1) (.var 1))) (.mul (.pow (.add (.num 1 1) (.mul (.num 2 1) (.var 1))) 2) (.add (.add (.sub (.sub (.neg (.num 3 1)) (.mul (.num 8 1) (.var 2))) (.pow (.var 2) 2)) (.mul (.num 8 1) (.pow (.var 2) 3))) (.mul (.num 4 1) (.pow (.var 2) 4))))))) (.var 2),
  .div (.mul (.mul (.neg (.num 2 1)) (.sqrt (.add (.num 3 1) (.div (.num 3 1) (.add (.num 1 1) (.mul (.num 2 1) (.var 1))))))) (.add (.add (.neg (.sqrt (.div (.mul (.var 1) (.var 2)) (.add (.add (.add (.num 1 1) (.mul (.num 2 1) (.var 1))) (.mul (.num 2 1) (.var 2))) (.mul (.mul (.num 4 1) (.var 1)) (.var 2)))))) (.mul (.num 3 1) (.sqrt (.div (.var 1) (.mul (.add (.num 1 1) (.mul (.num 2 1) (.var 1))) (.add (.var 2) (.mul (.num 2 1) (.pow (.var 2) 2)))))))) (.mul (.mul (.num 2 1) (.var 2)) (.add (.sqrt (.div (.mul (.var 1) (.var 2)) (.add (.add (.add (.num 1 1) (.mul (.num 2 1) (.var 1))) (.mul (.num 2 1) (.var 2))) (.mul (.mul (.num 4 1) (.var 1)) (.var 2))))) (.mul (.num 3 1) (.sqrt (.div (.var 1) (.mul (.add (.num 1 1) (.mul (.num 2 1) (.var 1))) (.add (.var 2) (.mul (.num 2 1) (.pow (.var 2) 2))))))))))) (.hpow (.mul (.add (.num 1 1) (.var 2)) (.add (.num 3 1) (.mul (.num 2 1) (.var 2)))) 1),
  .div (.mul (.mul (.neg (.num 2 1)) (.sqrt (.div (.add (.num 1 1) (.var 1)) (.add (.var 2) (.mul (.mul (.num 2 1) (.var 1)) (.var 2)))))) (.add (.mul (.num 6 1) (.sqrt (.div (.mul (.mul (.mul (.mul (.var 1) (.add (.neg (.num 1 1)) (.var 2))) (.add (.num 2 1) (.var 2))) (.add (.neg (.num 1 1)) (.mul (.num 2 1) (.var 2)))) (.add (.num 3 1) (.mul (.num 2 1) (.var 2)))) (.mul (.add (.num 1 1) (.mul (.num 2 1) (.var 1))) (.add (.num 1 1) (.var 2)))))) (.mul (.mul (.add (.neg (.num 1 1)) (.var 2)) (.var 2)) (.add (.add (.sqrt (.div (.mul (.mul (.mul (.mul (.var 1) (.add (.num 1 1) (.var 2))) (.add (.num 2 1) (.var 2))) (.add (.neg (.num 1 1)) (.mul (.num 2 1) (.var 2)))) (.add (.num 3 1) (.mul (.num 2 1) (.var 2)))) (.mul (.add (.num 1 1) (.mul (.num 2 1) (.var 1))) (.add (.neg (.num 1 1)) (.var 2))))) (.mul (.num 12 1) (.sqrt (.div (.mul (.mul (.mul (.var 1) (.add (.num 2 1) (.var 2))) (.add (.neg (.num 1 1)) (.mul (.num 2 1) (.var 2)))) (.add (.num 3 1) (.mul (.num 2 1) (.var 2)))) (.mul (.add (.num 1 1) (.mul (.num 2 1) (.var 1))) (.add (.neg (.num 1 1)) (.pow (.var 2) 2))))))) (.mul (.mul (.num 2 1) (.var 2)) (.add (.sqrt (.div (.mul (.mul (.mul (.mul (.var 1) (.add (.num 1 1) (.var 2))) (.add (.num 2 1) (.var 2))) (.add (.neg (.num 1 1)) (.mul (.num 2 1) (.var 2)))) (.add (.num 3 1) (.mul (.num 2 1) (.var 2)))) (.mul (.add (.num 1 1) (.mul (.num 2 1) (.var 1))) (.add (.neg (.num 1 1)) (.var 2))))) (.mul (.num 3 1) (.sqrt (.div (.mul (.mul (.mul (.var 1) (.add (.num 2 1) (.var 2))) (.add (.neg (.num 1 1)) (.mul (.num 2 1) (.var 2)))) (.add (.num 3 1) (.mul (.num 2 1) (.var 2)))) (.mul (.add (.num 1 1) (.mul (.num 2 1) (.var 1))) (.add (.neg (.num 1 1)) (.pow (.var 2) 2)))))))))))) (.mul (.mul (.mul (.add (.num 1 1) (.var 2)) (.add (.num 2 1) (.var 2))) (.add (.num 1 1) (.mul (.num 2 1) (.var 2)))) (.add (.num 3 1) (.mul (.num 2 1) (.var 2)))),
  .mul (.mul (.mul (.neg (.num 2 1)) (.sqrt (.num 2 1))) (.sqrt (.div (.add (.num 1 1) (.var 1)) (.mul (.mul (.pow (.add (.num 2 1) (.var 2)) 3) (.add (.var 2) (.mul (.mul (.num 2 1) (.var 1)) (.var 2)))) (.pow (.add (.add (.num 3 1) (.mul (.num 5 1) (.var 2))) (.mul (.num 2 1) (.pow (.var 2) 2))) 2))))) (.add (.mul (.num 6 1) (.sqrt (.div (.mul (.mul (.var 1) (.add (.num 2 1) (.var 2))) (.add (.neg (.num 1 1)) (.mul (.num 2 1) (.var 2)))) (.mul (.mul (.add (.num 1 1) (.mul (.num 2 1) (.var 1))) (.add (.num 1 1) (.var 2))) (.add (.num 1 1) (.mul (.num 2 1) (.var 2))))))) (.mul (.var 2) (.add (.add (.mul (.num 9 1) (.sqrt (.div (.mul (.mul (.var 1) (.add (.num 2 1) (.var 2))) (.add (.neg (.num 1 1)) (.mul (.num 2 1) (.var 2)))) (.mul (.mul (.add (.num 1 1) (.mul (.num 2 1) (.var 1))) (.add (.num 1 1) (.var 2))) (.add (.num 1 1) (.mul (.num 2 1) (.var 2))))))) (.mul (.num 3 1) (.sqrt (.div (.mul (.mul (.mul (.var 1) (.add (.num 2 1) (.var 2))) (.add (.neg (.num 1 1)) (.mul (.num 2 1) (.var 2)))) (.add (.num 1 1) (.mul (.num 2 1) (.var 2)))) (.mul (.add (.num 1 1) (.mul (.num 2 1) (.var 1))) (.add (.num 1 1) (.var 2))))))) (.sqrt (.div (.mul (.mul (.mul (.mul (.var 1) (.add (.num 1 1) (.var 2))) (.add (.num 2 1) (.var 2))) (.add (.neg (.num 1 1)) (.mul (.num 2 1) (.var 2)))) (.add (.num 1 1) (.mul (.num 2 1) (.var 2)))) (.add (.num 1 1) (.mul (.num 2 1) (.var 1)))))))),
  .div (.mul (.neg (.num 2 1)) (.add (.add (.add (.add (.mul (.num 2 1) (.sqrt (.div (.mul (.mul (.mul (.var 1) (.add (.num 1 1) (.var 2))) (.add (.neg (.num 1 1)) (.mul (.num 2 1) (.var 2)))) (.add (.num 1 1) (.mul (.num 2 1) (.var 2)))) (.mul (.add (.num 1 1) (.mul (.num 2 1) (.var 1))) (.add (.num 2 1) (.var 2)))))) (.sqrt (.div (.mul (.mul (.mul (.mul (.var 1) (.add (.num 1 1) (.var 2))) (.add (.num 2 1) (.var 2))) (.add (.neg (.num 1 1)) (.mul (.num 2 1) (.var 2)))) (.add (.num 1 1) (.mul (.num 2 1) (.var 2)))) (.add (.num 1 1) (.mul (.num 2 1) (.var 1)))))) (.div (.mul (.num 6 1) (.sqrt (.div (.mul (.mul (.mul (.var 1) (.add (.num 1 1) (.var 2))) (.add (.neg (.num 1 1)) (.mul (.num 2 1) (.var 2)))) (.add (.num 1 1) (.mul (.num 2 1) (.var 2)))) (.mul (.add (.num 1 1) (.mul (.num 2 1) (.var 1))) (.add (.num 2 1) (.var 2)))))) (.add (.num 3 1) (.mul (.num 2 1) (.var 2))))) (.div (.mul (.num 6 1) (.sqrt (.div (.mul (.var 1) (.add (.neg (.num 1 1)) (.mul (.num 4 1) (.pow (.var 2) 2)))) (.mul (.add (.num 1 1) (.mul (.num 2 1) (.var 1))) (.add (.add (.num 2 1) (.mul (.num 3 1) (.var 2))) (.pow (.var 2) 2)))))) (.add (.num 3 1) (.mul (.num 2 1) (.var 2))))) (.div (.mul (.num 6 1) (.sqrt (.div (.mul (.var 1) (.add (.neg (.num 1 1)) (.mul (.num 2 1) (.var 2)))) (.mul (.add (.num 1 1) (.mul (.num 2 1) (.var 1))) (.add (.add (.add (.num 2 1) (.mul (.num 7 1) (.var 2))) (.mul (.num 7 1) (.pow (.var 2) 2))) (.mul (.num 2 1) (.pow (.var 2) 3))))))) (.add (.num 3 1) (.mul (.num 2 1) (.var 2)))))) (.sqrt (.div (.mul (.mul (.mul (.mul (.add (.num 1 1) (.mul (.num 2 1) (.var 1))) (.add (.num 1 1) (.var 2))) (.add (.num 2 1) (.var 2))) (.add (.num 3 1) (.mul (.num 2 1) (.var 2)))) (.add (.num 5 1) (.mul (.num 2 1) (.var 2)))) (.add (.num 1 1) (.var 1)))),
  .div (.sqrt (.num 2 1)) (.mul (.add (.num 1 1) (.mul (.num 2 1) (.var 1))) (.sqrt (.mul (.add (.neg (.num 1 1)) (.var 2)) (.var 2)))),
  .div (.sqrt (.num 6 1)) (.mul (.add (.num 1 1) (.mul (.num 2 1) (.var 1))) (.sqrt (.mul (.mul (.mul (.add (.neg (.num 1 1)) (.var 2)) (.var 2)) (.add (.neg (.num 1 1)) (.mul (.num 2 1) (.var 2)))) (.add (.num 1 1) (.mul (.num 2 1) (.var 2)))))),
  .neg (.div (.sqrt (.num 2 1)) (.sqrt (.mul (.add (.neg (.num 1 1)) (.var 2)) (.var 2)))),
  .neg (.div (.mul (.sqrt (.div (.add (.num 6 1) (.mul (.num 12 1) (.var 1))) (.add (.sub (.num 1 1) (.mul (.num 3 1) (.var 2))) (.mul (.num 2 1) (.pow (.var 2) 2))))) (.add (.mul (.num 2 1) (.sqrt (.div (.mul (.mul (.add (.num 3 1) (.mul (.num 2 1) (.var 1))) (.var 2)) (.add (.num 1 1) (.mul (.num 2 1) (.var 2)))) (.add (.num 1 1) (.mul (.num 2 1) (.var 1)))))) (.sqrt (.mul (.mul (.add (.num 3 1) (.mul (.mul (.num 4 1) (.var 1)) (.add (.num 2 1) (.var 1)))) (.var 2)) (.add (.num 1 1) (.mul (.num 2 1) (.var 2))))))) (.mul (.mul (.hpow (.add (.num 3 1) (.mul (.num 2 1) (.var 1))) 1) (.var 2)) (.add (.num 1 1) (.mul (.num 2 1) (.var 2))))),
  .div (.mul (.add (.neg (.num 2 1)) (.var 2)) (.add (.num 1 1) (.var 2))) (.mul (.add (.num 1 1) (.mul (.num 2 1) (.var 1))) (.sqrt (.mul (.mul (.mul (.add (.neg (.num 2 1)) (.var 2)) (.add (.neg (.num 1 1)) (.var 2))) (.var 2)) (.add (.num 1 1) (.var 2))))),
  .div (.mul (.mul (.sqrt (.num 3 1)) (.add (.num 1 1) (.var 2))) (.add (.neg (.num 3 1)) (.mul (.num 2 1) (.var 2)))) (.mul (.sqrt (.mul (.mul (.mul (.add (.neg (.num 1 1)) (.var 2)) (.add (.num 1 1) (.var 2))) (.add (.neg (.num 3 1)) (.mul (.num 2 1) (.var 2)))) (.add (.num 1 1) (.mul (.num 2 1) (.var 2))))) (.add (.var 2) (.mul (.mul (.num 2 1) (.var 1)) (.var 2)))),
  .div (.num 3 1) (.mul (.add (.num 1 1) (.mul (.num 2 1) (.var 1))) (.add (.var 2) (.mul (.num 2 1) (.pow (.var 2) 2)))),
  .neg (.div (.sqrt (.div (.mul (.mul (.add (.neg (.num 2 1)) (.var 2)) (.add (.neg (.num 1 1)) (.var 2))) (.add (.num 1 1) (.var 2))) (.var 2))) (.add (.neg (.num 1 1)) (.var 2))),
  .div (.mul (.sqrt (.num 3 1)) (.sub (.add (.num 3 1) (.var 2)) (.mul (.num 2 1) (.pow (.var 2) 2)))) (.mul (.var 2) (.sqrt (.mul (.mul (.mul (.add (.neg (.num 1 1)) (.var 2)) (.add (.num 1 1) (.var 2))) (.add (.neg (.num 3 1)) (.mul (.num 2 1) (.var 2)))) (.add (.num 1 1) (.mul (.num 2 1) (.var 2)))))),
  .div (.neg (.num 3 1)) (.add (.var 2) (.mul (.num 2 1) (.pow (.var 2) 2))),
  .div (.add (.sub (.num 9 1) (.mul (.num 13 1) (.pow (.var 2) 2))) (.mul (.num 4 1) (.pow (.var 2) 4))) (.mul (.add (.var 2) (.mul (.mul (.num 2 1) (.var 1)) (.var 2))) (.sqrt (.add (.neg (.num 9 1)) (.mul (.pow (.var 2) 2) (.pow (.sub (.num 7 1) (.mul (.num 4 1) (.pow (.var 2) 2))) 2))))),
  .mul (.mul (.sqrt (.num 3 1)) (.sqrt (.add (.num 1 1) (.var 1)))) (.add (.add (.add (.sub (.sub (.div (.mul (.neg (.num 12 1)) (.var 1)) (.mul (.mul (.mul (.add (.num 1 1) (.mul (.num 2 1) (.var 1))) (.var 2)) (.add (.num 1 1) (.var 2))) (.sqrt (.div (.mul (.mul (.mul (.add (.num 1 1) (.var 1)) (.add (.num 1 1) (.var 2))) (.add (.num 1 1) (.mul (.num 2 1) (.var 2)))) (.add (.num 3 1) (.mul (.num 2 1) (.var 2)))) (.add (.neg (.num 1 1)) (.var 2)))))) (.div (.mul (.mul (.mul (.num 6 1) (.var 1)) (.add (.neg (.num 1 1)) (.var 2))) (.add (.neg (.num 1 1)) (.mul (.num 2 1) (.var 2)))) (.mul (.mul (.mul (.add (.num 1 1) (.mul (.num 2 1) (.var 1))) (.var 2)) (.add (.num 1 1) (.var 2))) (.sqrt (.mul (.mul (.mul (.mul (.add (.num 1 1) (.var 1)) (.add (.neg (.num 1 1)) (.var 2))) (.add (.num 1 1) (.var 2))) (.add (.num 1 1) (.mul (.num 2 1) (.var 2)))) (.add (.num 3 1) (.mul (.num 2 1) (.var 2)))))))) (.div (.mul (.mul (.mul (.mul (.num 2 1) (.var 1)) (.add (.neg (.num 1 1)) (.var 2))) (.var 2)) (.add (.neg (.num 1 1)) (.mul (.num 2 1) (.var 2)))) (.mul (.add (.num 1 1) (.mul (.num 2 1) (.var 1))) (.sqrt (.mul (.mul (.mul (.mul (.mul (.add (.num 1 1) (.var 1)) (.add (.neg (.num 1 1)) (.var 2))) (.pow (.var 2) 2)) (.pow (.add (.num 1 1) (.var 2)) 3)) (.add (.num 1 1) (.mul (.num 2 1) (.var 2)))) (.add (.num 3 1) (.mul (.num 2 1) (.var 2)))))))) (.mul (.mul (.add (.neg (.num 1 1)) (.var 2)) (.add (.neg (.num 1 1)) (.mul (.num 2 1) (.var 2)))) (.sqrt (.div (.num 1 1) (.mul (.mul (.add (.num 1 1) (.var 1)) (.pow (.add (.num 1 1) (.var 2)) 3)) (.add (.add (.sub (.neg (.num 3 1)) (.mul (.num 5 1) (.var 2))) (.mul (.num 4 1) (.pow (.var 2) 2))) (.mul (.num 4 1) (.pow (.var 2) 3)))))))) (.mul (.mul (.mul (.num 3 1) (.add (.neg (.num 1 1)) (.var 2))) (.add (.neg (.num 1 1)) (.mul (.num 2 1) (.var 2)))) (.sqrt (.div (.num 1 1) (.mul (.mul (.mul (.add (.num 1 1) (.var 1)) (.pow (.var 2) 2)) (.pow (.add (.num 1 1) (.var 2)) 3)) (.add (.add (.sub (.neg (.num 3 1)) (.mul (.num 5 1) (.var 2))) (.mul (.num 4 1) (.pow (.var 2) 2))) (.mul (.num 4 1) (.pow (.var 2) 3)))))))) (.div (.mul (.num 6 1) (.sqrt (.div (.add (.neg (.num 1 1)) (.var 2)) (.mul (.add (.num 1 1) (.var 1)) (.add (.add (.add (.num 3 1) (.mul (.num 11 1) (.var 2))) (.mul (.num 12 1) (.pow (.var 2) 2))) (.mul (.num 4 1) (.pow (.var 2) 3))))))) (.add (.var 2) (.pow (.var 2) 2)))),
  .div (.sqrt (.num 6 1)) (.mul (.add (.num 1 1) (.mul (.num 2 1) (.var 1))) (.sqrt (.mul (.mul (.mul (.var 2) (.add (.num 1 1) (.var 2))) (.add (.num 1 1) (.mul (.num 2 1) (.var 2)))) (.add (.num 3 1) (.mul (.num 2 1) (.var 2)))))),
  .neg (.div (.mul (.mul (.add (.num 1 1) (.var 2)) (.add (.num 3 1) (.mul (.num 2 1) (.var 2)))) (.sqrt (.div (.add (.sub (.num 3 1) (.mul (.num 5 1) (.var 2))) (.mul (.num 2 1) (.pow (.var 2) 2))) (.add (.add (.add (.sub (.neg (.num 3 1)) (.mul (.num 5 1) (.var 2))) (.mul (.num 10 1) (.pow (.var 2) 2))) (.mul (.num 20 1) (.pow (.var 2) 3))) (.mul (.num 8 1) (.pow (.var 2) 4)))))) (.var 2)),
  .neg (.div (.mul (.mul (.sqrt (.num 3 1)) (.add (.neg (.num 1 1)) (.var 2))) (.add (.num 3 1) (.mul (.num 2 1) (.var 2)))) (.mul (.var 2) (.sqrt (.mul (.mul (.mul (.add (.neg (.num 1 1)) (.var 2)) (.add (.num 1 1) (.var 2))) (.add (.num 1 1) (.mul (.num 2 1) (.var 2)))) (.add (.num 3 1) (.mul (.num 2 1) (.var 2))))))),
  .neg (.div (.mul (.sqrt (.num 6 1)) (.add (.sub (.mul (.num 6 1) (.sqrt (.mul (.mul (.add (.num 3 1) (.mul (.num 2 1) (.var 1))) (.add (.num 1 1) (.var 2))) (.add (.num 3 1) (.mul (.num 2 1) (.var 2)))))) (.mul (.num 9 1) (.sqrt (.div (.add (.num 3 1) (.mul (.num 2 1) (.var 1))) (.add (.add (.num 3 1) (.mul (.num 5 1) (.var 2))) (.mul (.num 2 1) (.pow (.var 2) 2))))))) (.mul (.var 2) (.add (.add (.neg (.sqrt (.mul (.mul (.add (.num 3 1) (.mul (.num 2 1) (.var 1))) (.add (.num 1 1) (.var 2))) (.add (.num 3 1) (.mul (.num 2 1) (.var 2)))))) (.mul (.num 3 1) (.sqrt (.div (.add (.num 3 1) (.mul (.num 2 1) (.var 1))) (.add (.add (.num 3 1) (.mul (.num 5 1) (.var 2))) (.mul (.num 2 1) (.pow (.var 2) 2))))))) (.mul (.mul (.num 2 1) (.var 2)) (.add (.add (.sqrt (.mul (.mul (.add (.num 3 1) (.mul (.num 2 1) (.var 1))) (.add (.num 1 1) (.var 2))) (.add (.num 3 1) (.mul (.num 2 1) (.var 2))))) (.mul (.num 12 1) (.sqrt (.div (.add (.num 3 1) (.mul (.num 2 1) (.var 1))) (.add (.add (.num 3 1) (.mul (.num 5 1) (.var 2))) (.mul (.num 2 1) (.pow (.var 2) 2))))))) (.mul (.mul (.num 6 1) (.var 2)) (.sqrt (.div (.add (.num 3 1) (.mul (.num 2 1) (.var 1))) (.add (.add (.num 3 1) (.mul (.num 5 1) (.var 2))) (.mul (.num 2 1) (.pow (.var 2) 2)))))))))))) (.mul (.mul (.pow (.add (.num 1 1) (.var 2)) 2) (.sqrt (.mul (.mul (.add (.num 3 1) (.mul (.num 2 1) (.var 1))) (.var 2)) (.add (.num 1 1) (.mul (.num 2 1) (.var 2)))))) (.pow (.add (.num 3 1) (.mul (.num 2 1) (.var 2))) 2))),
  .mul (.mul (.sqrt (.num 2 1)) (.sqrt (.add (.num 1 1) (.var 1)))) (.sub (.add (.sub (.sub (.sub (.add (.add (.div (.mul (.add (.neg (.num 1 1)) (.var 2)) (.var 2)) (.mul (.sqrt (.num 2 1)) (.sqrt (.div (.mul (.mul (.mul (.mul (.mul (.add (.num 1 1) (.var 1)) (.add (.neg (.num 1 1)) (.var 2))) (.var 2)) (.add (.num 1 1) (.var 2))) (.add (.num 2 1) (.var 2))) (.add (.num 3 1) (.mul (.num 2 1) (.var 2)))) (.add (.neg (.num 1 1)) (.mul (.num 2 1) (.var 2))))))) (.div (.mul (.mul (.num 3 1) (.add (.neg (.num 1 1)) (.var 2))) (.var 2)) (.mul (.sqrt (.num 2 1)) (.sqrt (.div (.mul (.mul (.mul (.mul (.mul (.add (.num 1 1) (.var 1)) (.add (.neg (.num 1 1)) (.var 2))) (.var 2)) (.pow (.add (.num 1 1) (.var 2)) 3)) (.add (.num 2 1) (.var 2))) (.add (.num 3 1) (.mul (.num 2 1) (.var 2)))) (.add (.neg (.num 1 1)) (.mul (.num 2 1) (.var 2)))))))) (.div (.mul (.num 9 1) (.add (.neg (.num 1 1)) (.var 2))) (.mul (.mul (.sqrt (.num 2 1)) (.add (.num 1 1) (.var 2))) (.sqrt (.div (.mul (.mul (.mul (.mul (.mul (.add (.num 1 1) (.var 1)) (.add (.neg (.num 1 1)) (.var 2))) (.add (.num 1 1) (.var 2))) (.add (.num 2 1) (.var 2))) (.pow (.add (.num 1 1) (.mul (.num 2 1) (.var 2))) 2)) (.add (.num 3 1) (.mul (.num 2 1) (.var 2)))) (.mul (.var 2) (.add (.neg (.num 1 1)) (.mul (.num 2 1) (.var 2))))))))) (.div (.mul (.mul (.mul (.num 6 1) (.sqrt (.num 2 1))) (.var 1)) (.sqrt (.add (.add (.neg (.num 3 1)) (.div (.num 1 1) (.var 2))) (.mul (.num 2 1) (.var 2))))) (.mul (.mul (.mul (.add (.num 1 1) (.mul (.num 2 1) (.var 1))) (.add (.num 1 1) (.var 2))) (.add (.num 1 1) (.mul (.num 2 1) (.var 2)))) (.sqrt (.mul (.mul (.mul (.add (.num 1 1) (.var 1)) (.add (.num 1 1) (.var 2))) (.add (.num 2 1) (.var 2))) (.add (.num 3 1) (.mul (.num 2 1) (.var 2)))))))) (.div (.mul (.mul (.var 1) (.add (.neg (.num 1 1)) (.var 2))) (.var 2)) (.mul (.add (.num 1 1) (.mul (.num 2 1) (.var 1))) (.sqrt (.div (.mul (.mul (.mul (.mul (.add (.num 1 1) (.var 1)) (.var 2)) (.add (.num 2 1) (.var 2))) (.add (.num 3 1) (.mul (.num 2 1) (.var 2)))) (.add (.neg (.num 1 1)) (.pow (.var 2) 2))) (.add (.neg (.num 2 1)) (.mul (.num 4 1) (.var 2)))))))) (.div (.mul (.mul (.num 9 1) (.var 1)) (.var 2)) (.mul (.mul (.mul (.add (.num 1 1) (.mul (.num 2 1) (.var 1))) (.add (.num 1 1) (.var 2))) (.add (.num 1 1) (.mul (.num 2 1) (.var 2)))) (.sqrt (.div (.mul (.mul (.mul (.mul (.add (.num 1 1) (.var 1)) (.var 2)) (.add (.num 1 1) (.var 2))) (.add (.num 2 1) (.var 2))) (.add (.num 3 1) (.mul (.num 2 1) (.var 2)))) (.add (.sub (.num 2 1) (.mul (.num 6 1) (.var 2))) (.mul (.num 4 1) (.pow (.var 2) 2)))))))) (.div (.mul (.num 3 1) (.sqrt (.div (.add (.sub (.num 2 1) (.mul (.num 6 1) (.var 2))) (.mul (.num 4 1) (.pow (.var 2) 2))) (.mul (.mul (.mul (.mul (.add (.num 1 1) (.var 1)) (.var 2)) (.add (.num 1 1) (.var 2))) (.pow (.add (.num 1 1) (.mul (.num 2 1) (.var 2))) 2)) (.add (.add (.num 6 1) (.mul (.num 7 1) (.var 2))) (.mul (.num 2 1) (.pow (.var 2) 2))))))) (.add (.num 1 1) (.var 2)))) (.mul (.mul (.mul (.mul (.num 3 1) (.sqrt (.num 2 1))) (.add (.neg (.num 1 1)) (.var 2))) (.var 2)) (.sqrt (.div (.mul (.pow (.var 1) 2) (.add (.neg (.num 1 1)) (.mul (.num 2 1) (.var 2)))) (.mul (.mul (.mul (.mul (.add (.num 1 1) (.var 1)) (.pow (.add (.num 1 1) (.mul (.num 2 1) (.var 1))) 2)) (.var 2)) (.pow (.add (.num 1 1) (.var 2)) 3)) (.add (.add (.sub (.neg (.num 6 1)) (.var 2)) (.mul (.num 5 1) (.pow (.var 2) 2))) (.mul (.num 2 1) (.pow (.var 2) 3)))))))),
  .div (.mul (.sqrt (.num 2 1)) (.add (.neg (.num 1 1)) (.mul (.num 2 1) (.var 2)))) (.mul (.add (.num 1 1) (.mul (.num 2 1) (.var 1))) (.sqrt (.mul (.mul (.mul (.var 2) (.add (.num 1 1) (.var 2))) (.add (.neg (.num 1 1)) (.mul (.num 2 1) (.var 2)))) (.add (.num 1 1) (.mul (.num 2 1) (.var 2)))))),
  .div (.sub (.mul (.neg (.num 6 1)) (.sqrt (.add (.add (.neg (.num 2 1)) (.var 2)) (.div (.num 3 1) (.add (.num 1 1) (.mul (.num 2 1) (.var 2))))))) (.mul (.mul (.add (.neg (.num 1 1)) (.var 2)) (.var 2)) (.add (.add (.mul (.num 4 1) (.sqrt (.add (.add (.num 4 1) (.div (.num 3 1) (.add (.neg (.num 1 1)) (.var 2)))) (.mul (.num 4 1) (.var 2))))) (.mul (.var 2) (.sqrt (.add (.add (.num 4 1) (.div (.num 3 1) (.add (.neg (.num 1 1)) (.var 2)))) (.mul (.num 4 1) (.var 2)))))) (.mul (.num 9 1) (.sqrt (.div (.sub (.num 1 1) (.mul (.num 2 1) (.var 2))) (.sub (.add (.num 1 1) (.var 2)) (.mul (.num 2 1) (.pow (.var 2) 2))))))))) (.mul (.add (.num 1 1) (.var 2)) (.sqrt (.mul (.mul (.mul (.mul (.var 2) (.add (.num 1 1) (.var 2))) (.add (.num 2 1) (.var 2))) (.add (.num 1 1) (.mul (.num 2 1) (.var 2)))) (.add (.num 3 1) (.mul (.num 2 1) (.var 2)))))),
  .neg (.sqrt (.div (.add (.neg (.num 2 1)) (.mul (.num 4 1) (.var 2))) (.add (.add (.var 2) (.mul (.num 3 1) (.pow (.var 2) 2))) (.mul (.num 2 1) (.pow (.var 2) 3))))),
  .div (.add (.sub (.add (.sub (.sub (.add (.sub (.add (.add (.sub (.mul (.mul (.neg (.num 12 1)) (.var 1)) (.sqrt (.div (.mul (.mul (.mul (.mul (.add (.num 1 1) (.var 1)) (.var 2)) (.add (.neg (.num 1 1)) (.mul (.num 2 1) (.var 2)))) (.add (.num 1 1) (.mul (.num 2 1) (.var 2)))) (.add (.num 5 1) (.mul (.num 2 1) (.var 2)))) (.mul (.mul (.add (.num 1 1) (.mul (.num 2 1) (.var 1))) (.add (.num 2 1) (.var 2))) (.add (.num 3 1) (.mul (.num 2 1) (.var 2))))))) (.mul (.mul (.mul (.num 12 1) (.var 1)) (.add (.num 1 1) (.var 2))) (.sqrt (.div (.mul (.mul (.mul (.mul (.add (.num 1 1) (.var 1)) (.var 2)) (.add (.neg (.num 1 1)) (.mul (.num 2 1) (.var 2)))) (.add (.num 1 1) (.mul (.num 2 1) (.var 2)))) (.add (.num 5 1) (.mul (.num 2 1) (.var 2)))) (.mul (.mul (.add (.num 1 1) (.mul (.num 2 1) (.var 1))) (.add (.num 2 1) (.var 2))) (.add (.num 3 1) (.mul (.num 2 1) (.var 2)))))))) (.mul (.num 6 1) (.sqrt (.div (.mul (.mul (.mul (.mul (.mul (.add (.num 1 1) (.var 1)) (.add (.num 1 1) (.mul (.num 2 1) (.var 1)))) (.var 2)) (.add (.neg (.num 1 1)) (.mul (.num 2 1) (.var 2)))) (.add (.num 1 1) (.mul (.num 2 1) (.var 2)))) (.add (.num 5 1) (.mul (.num 2 1) (.var 2)))) (.mul (.add (.num 2 1) (.var 2)) (.add (.num 3 1) (.mul (.num 2 1) (.var 2)))))))) (.mul (.mul (.num 6 1) (.add (.num 1 1) (.var 2))) (.sqrt (.div (.mul (.mul (.mul (.mul (.mul (.add (.num 1 1) (.var 1)) (.add (.num 1 1) (.mul (.num 2 1) (.var 1)))) (.var 2)) (.add (.neg (.num 1 1)) (.mul (.num 2 1) (.var 2)))) (.add (.num 1 1) (.mul (.num 2 1) (.var 2)))) (.add (.num 5 1) (.mul (.num 2 1) (.var 2)))) (.mul (.add (.num 2 1) (.var 2)) (.add (.num 3 1) (.mul (.num 2 1) (.var 2)))))))) (.mul (.mul (.mul (.num 4 1) (.var 1)) (.add (.num 1 1) (.var 2))) (.sqrt (.div (.mul (.mul (.mul (.mul (.mul (.add (.num 1 1) (.var 1)) (.var 2)) (.add (.neg (.num 1 1)) (.mul (.num 2 1) (.var 2)))) (.add (.num 1 1) (.mul (.num 2 1) (.var 2)))) (.add (.num 3 1) (.mul (.num 2 1) (.var 2)))) (.add (.num 5 1) (.mul (.num 2 1) (.var 2)))) (.mul (.add (.num 1 1) (.mul (.num 2 1) (.var 1))) (.add (.num 2 1) (.var 2))))))) (.mul (.mul (.num 2 1) (.add (.num 1 1) (.var 2))) (.sqrt (.div (.mul (.mul (.mul (.mul (.mul (.mul (.add (.num 1 1) (.var 1)) (.add (.num 1 1) (.mul (.num 2 1) (.var 1)))) (.var 2)) (.add (.neg (.num 1 1)) (.mul (.num 2 1) (.var 2)))) (.add (.num 1 1) (.mul (.num 2 1) (.var 2)))) (.add (.num 3 1) (.mul (.num 2 1) (.var 2)))) (.add (.num 5 1) (.mul (.num 2 1) (.var 2)))) (.add (.num 2 1) (.var 2)))))) (.mul (.mul (.num 2 1) (.var 1)) (.sqrt (.div (.mul (.mul (.mul (.mul (.mul (.mul (.add (.num 1 1) (.var 1)) (.var 2)) (.add (.num 2 1) (.var 2))) (.add (.neg (.num 1 1)) (.mul (.num 2 1) (.var 2)))) (.add (.num 1 1) (.mul (.num 2 1) (.var 2)))) (.add (.num 3 1) (.mul (.num 2 1) (.var 2)))) (.add (.num 5 1) (.mul (.num 2 1) (.var 2)))) (.add (.num 1 1) (.mul (.num 2 1) (.var 1))))))) (.mul (.mul (.mul (.num 2 1) (.var 1)) (.var 2)) (.sqrt (.div (.mul (.mul (.mul (.mul (.mul (.mul (.add (.num 1 1) (.var 1)) (.var 2)) (.add (.num 2 1) (.var 2))) (.add (.neg (.num 1 1)) (.mul (.num 2 1) (.var 2)))) (.add (.num 1 1) (.mul (.num 2 1) (.var 2)))) (.add (.num 3 1) (.mul (.num 2 1) (.var 2)))) (.add (.num 5 1) (.mul (.num 2 1) (.var 2)))) (.add (.num 1 1) (.mul (.num 2 1) (.var 1))))))) (.mul (.add (.num 1 1) (.var 2)) (.sqrt (.mul (.mul (.mul (.mul (.mul (.mul (.mul (.add (.num 1 1) (.var 1)) (.add (.num 1 1) (.mul (.num 2 1) (.var 1)))) (.var 2)) (.add (.num 2 1) (.var 2))) (.add (.neg (.num 1 1)) (.mul (.num 2 1) (.var 2)))) (.add (.num 1 1) (.mul (.num 2 1) (.var 2)))) (.add (.num 3 1) (.mul (.num 2 1) (.var 2)))) (.add (.num 5 1) (.mul (.num 2 1) (.var 2))))))) (.mul (.mul (.num 12 1) (.var 1)) (.sqrt (.div (.mul (.mul (.add (.num 1 1) (.var 1)) (.var 2)) (.add (.add (.neg (.num 5 1)) (.mul (.num 8 1) (.var 2))) (.mul (.num 4 1) (.pow (.var 2) 2)))) (.mul (.add (.num 1 1) (.mul (.num 2 1) (.var 1))) (.add (.add (.add (.num 6 1) (.mul (.num 19 1) (.var 2))) (.mul (.num 16 1) (.pow (.var 2) 2))) (.mul (.num 4 1) (.pow (.var 2) 3)))))))) (.mul (.num 6 1) (.sqrt (.div (.mul (.mul (.mul (.add (.num 1 1) (.var 1)) (.add (.num 1 1) (.mul (.num 2 1) (.var 1)))) (.var 2)) (.add (.neg (.num 5 1)) (.mul (.mul (.num 4 1) (.var 2)) (.add (.num 2 1) (.var 2))))) (.mul (.mul (.add (.num 2 1) (.var 2)) (.add (.num 1 1) (.mul (.num 2 1) (.var 2)))) (.add (.num 3 1) (.mul (.num 2 1) (.var 2)))))))) (.mul (.mul (.mul (.add (.num 1 1) (.var 2)) (.sqrt (.mul (.mul (.mul (.add (.num 1 1) (.var 1)) (.add (.num 1 1) (.mul (.num 2 1) (.var 1)))) (.var 2)) (.add (.num 2 1) (.var 2))))) (.add (.num 3 1) (.mul (.num 2 1) (.var 2)))) (.add (.num 5 1) (.mul (.num 2 1) (.var 2)))),
  .neg (.sqrt (.div (.add (.neg (.num 5 1)) (.mul (.mul (.num 4 1) (.var 2)) (.add (.num 2 1) (.var 2)))) (.add (.num 3 1) (.mul (.mul (.num 4 1) (.var 2)) (.add (.num 2 1) (.var 2)))))),
  .mul (.neg (.num 2 1)) (.sqrt (.div (.add (.neg (.num 1 1)) (.pow (.var 1) 2)) (.add (.neg (.num 1 1)) (.mul (.num 4 1) (.pow (.var 1) 2))))),
  .div (.sqrt (.num 3 1)) (.sqrt (.add (.neg (.num 1 1)) (.mul (.num 4 1) (.pow (.var 1) 2)))),
  .neg (.div (.sqrt (.add (.neg (.num 3 1)) (.mul (.mul (.num 4 1) (.var 1)) (.add (.num 1 1) (.var 1))))) (.add (.num 1 1) (.mul (.num 2 1) (.var 1)))),
  .div (.num 2 1) (.add (.num 1 1) (.mul (.num 2 1) (.var 1))),
  .div (.mul (.neg (.num 2 1)) (.sqrt (.div (.mul (.mul (.var 1) (.add (.num 2 1) (.var 1))) (.add (.num 3 1) (.mul (.num 2 1) (.var 1)))) (.add (.num 1 1) (.mul (.num 2 1) (.var 1)))))) (.add (.num 3 1) (.mul (.num 2 1) (.var 1))),
  .div (.sqrt (.add (.num 3 1) (.div (.num 6 1) (.add (.num 1 1) (.mul (.num 2 1) (.var 1)))))) (.add (.num 3 1) (.mul (.num 2 1) (.var 1))),
  .div (.num 1 1) (.sub (.neg (.num 1 1)) (.mul (.num 2 1) (.var 1))),
  .neg (.div (.num 1 1) (.add (.var 2) (.mul (.mul (.num 2 1) (.var 1)) (.var 2)))),
  .neg (.div (.num 1 1) (.mul (.add (.num 1 1) (.mul (.num 2 1) (.var 2))) (.add (.var 2) (.mul (.mul (.num 2 1) (.var 1)) (.var 2))))),
  .neg (.div (.sqrt (.add (.neg (.num 1 1)) (.pow (.var 2) 2))) (.add (.var 2) (.mul (.mul (.num 2 1) (.var 1)) (.var 2)))),
  .neg (.div (.sqrt (.sub (.num 1 1) (.div (.num 2 1) (.add (.num 1 1) (.mul (.num 2 1) (.var 2)))))) (.add (.var 2) (.mul (.mul (.num 2 1) (.var 1)) (.var 2)))),
  .neg (.div (.add (.add (.sqrt (.mul (.mul (.mul (.var 2) (.add (.num 1 1) (.var 2))) (.add (.neg (.num 1 1)) (.mul (.num 2 1) (.var 2)))) (.add (.num 1 1) (.mul (.num 2 1) (.var 2))))) (.sqrt (.div (.mul (.var 2) (.add (.neg (.num 1 1)) (.mul (.num 2 1) (.var 2)))) (.add (.add (.num 1 1) (.mul (.num 3 1) (.var 2))) (.mul (.num 2 1) (.pow (.var 2) 2)))))) (.sqrt (.div (.mul (.var 2) (.add (.neg (.num 1 1)) (.mul (.num 4 1) (.pow (.var 2) 2)))) (.add (.num 1 1) (.var 2))))) (.sqrt (.mul (.mul (.mul (.var 2) (.add (.num 1 1) (.var 2))) (.add (.num 1 1) (.mul (.num 2 1) (.var 2)))) (.add (.num 3 1) (.mul (.num 2 1) (.var 2)))))),
  .div (.sub (.sub (.neg (.sqrt (.mul (.mul (.mul (.var 2) (.add (.num 1 1) (.var 2))) (.add (.neg (.num 1 1)) (.mul (.num 2 1) (.var 2)))) (.add (.num 1 1) (.mul (.num 2 1) (.var 2)))))) (.sqrt (.div (.mul (.var 2) (.add (.neg (.num 1 1)) (.mul (.num 2 1) (.var 2)))) (.add (.add (.num 1 1) (.mul (.num 3 1) (.var 2))) (.mul (.num 2 1) (.pow (.var 2) 2)))))) (.sqrt (.div (.mul (.var 2) (.add (.neg (.num 1 1)) (.mul (.num 4 1) (.pow (.var 2) 2)))) (.add (.num 1 1) (.var 2))))) (.mul (.add (.num 1 1) (.mul (.num 2 1) (.var 1))) (.sqrt (.mul (.mul (.mul (.var 2) (.add (.num 1 1) (.var 2))) (.add (.num 1 1) (.mul (.num 2 1) (.var 2)))) (.add (.num 3 1) (.mul (.num 2 1) (.var 2)))))),
  .div (.mul (.neg (.num 2 1)) (.sqrt (.mul (.var 1) (.add (.num 1 1) (.var 1))))) (.mul (.add (.num 1 1) (.mul (.num 2 1) (.var 1))) (.add (.var 2) (.mul (.num 2 1) (.pow (.var 2) 2)))),
  .div (.mul (.mul (.neg (.num 2 1)) (.sqrt (.div (.add (.num 1 1) (.var 1)) (.add (.num 1 1) (.var 2))))) (.add (.add (.neg (.mul (.var 2) (.sqrt (.div (.mul (.var 1) (.var 2)) (.add (.neg (.num 1 1)) (.var 2)))))) (.sqrt (.mul (.mul (.var 1) (.add (.neg (.num 1 1)) (.var 2))) (.var 2)))) (.sqrt (.div (.mul (.var 1) (.pow (.var 2) 5)) (.add (.neg (.num 1 1)) (.var 2)))))) (.mul (.add (.num 1 1) (.mul (.num 2 1) (.var 1))) (.hpow (.var 2) 1)),
  .div (.mul (.neg (.num 2 1)) (.sqrt (.mul (.mul (.var 1) (.add (.num 1 1) (.var 1))) (.add (.neg (.num 1 1)) (.mul (.num 4 1) (.pow (.var 2) 2)))))) (.mul (.add (.num 1 1) (.mul (.num 2 1) (.var 1))) (.add (.var 2) (.mul (.num 2 1) (.pow (.var 2) 2)))),
  .neg (.div (.mul (.sqrt (.var 1)) (.add (.mul (.mul (.mul (.num 2 1) (.var 1)) (.add (.num 1 1) (.var 2))) (.add (.add (.mul (.num 2 1) (.sqrt (.div (.mul (.mul (.mul (.add (.num 1 1) (.var 1)) (.add (.neg (.num 1 1)) (.mul (.num 2 1) (.var 2)))) (.add (.num 1 1) (.mul (.num 2 1) (.var 2)))) (.add (.num 3 1) (.mul (.num 2 1) (.var 2)))) (.add (.num 1 1) (.var 2))))) (.sqrt (.mul (.mul (.mul (.mul (.add (.num 1 1) (.var 1)) (.add (.num 1 1) (.var 2))) (.add (.neg (.num 1 1)) (.mul (.num 2 1) (.var 2)))) (.add (.num 1 1) (.mul (.num 2 1) (.var 2)))) (.add (.num 3 1) (.mul (.num 2 1) (.var 2)))))) (.mul (.mul (.num 2 1) (.var 2)) (.add (.sqrt (.div (.mul (.mul (.mul (.add (.num 1 1) (.var 1)) (.add (.neg (.num 1 1)) (.mul (.num 2 1) (.var 2)))) (.add (.num 1 1) (.mul (.num 2 1) (.var 2)))) (.add (.num 3 1) (.mul (.num 2 1) (.var 2)))) (.add (.num 1 1) (.var 2)))) (.sqrt (.mul (.mul (.mul (.mul (.add (.num 1 1) (.var 1)) (.add (.num 1 1) (.var 2))) (.add (.neg (.num 1 1)) (.mul (.num 2 1) (.var 2)))) (.add (.num 1 1) (.mul (.num 2 1) (.var 2)))) (.add (.num 3 1) (.mul (.num 2 1) (.var 2))))))))) (.mul (.add (.num 3 1) (.mul (.num 2 1) (.var 2))) (.add (.add (.sqrt (.div (.mul (.mul (.mul (.add (.num 1 1) (.var 1)) (.add (.neg (.num 1 1)) (.mul (.num 2 1) (.var 2)))) (.add (.num 1 1) (.mul (.num 2 1) (.var 2)))) (.add (.num 3 1) (.mul (.num 2 1) (.var 2)))) (.add (.num 1 1) (.var 2)))) (.sqrt (.mul (.mul (.mul (.mul (.add (.num 1 1) (.var 1)) (.add (.num 1 1) (.var 2))) (.add (.neg (.num 1 1)) (.mul (.num 2 1) (.var 2)))) (.add (.num 1 1) (.mul (.num 2 1) (.var 2)))) (.add (.num 3 1) (.mul (.num 2 1) (.var 2)))))) (.mul (.var 2) (.add (.sqrt (.div (.mul (.mul (.mul (.add (.num 1 1) (.var 1)) (.add (.neg (.num 1 1)) (.mul (.num 2 1) (.var 2)))) (.add (.num 1 1) (.mul (.num 2 1) (.var 2)))) (.add (.num 3 1) (.mul (.num 2 1) (.var 2)))) (.add (.num 1 1) (.var 2)))) (.mul (.num 2 1) (.sqrt (.mul (.mul (.mul (.mul (.add (.num 1 1) (.var 1)) (.add (.num 1 1) (.var 2))) (.add (.neg (.num 1 1)) (.mul (.num 2 1) (.var 2)))) (.add (.num 1 1) (.mul (.num 2 1) (.var 2)))) (.add (.num 3 1) (.mul (.num 2 1) (.var 2)))))))))))) (.mul (.mul (.mul (.add (.num 1 1) (.var 1)) (.add (.num 1 1) (.mul (.num 2 1) (.var 1)))) (.hpow (.mul (.add (.num 1 1) (.var 2)) (.add (.num 1 1) (.mul (.num 2 1) (.var 2)))) 1)) (.add (.num 3 1) (.mul (.num 2 1) (.var 2))))),
  .div (.num 1 1) (.sqrt (.mul (.var 1) (.add (.num 1 1) (.mul (.num 2 1) (.var 1))))),
  .div (.num 1 1) (.mul (.sqrt (.mul (.var 1) (.add (.num 1 1) (.mul (.num 2 1) (.var 1))))) (.var 2)),
  .div (.num 1 1) (.mul (.sqrt (.mul (.var 1) (.add (.num 1 1) (.mul (.num 2 1) (.var 1))))) (.add (.var 2) (.mul (.num 2 1) (.pow (.var 2) 2)))),
  .div (.sqrt (.sub (.num 1 1) (.div (.num 2 1) (.add (.num 1 1) (.mul (.num 2 1) (.var 2)))))) (.var 2),
  .div (.num 1 1) (.mul (.var 2) (.sqrt (.div (.mul (.var 1) (.add (.num 1 1) (.mul (.num 2 1) (.var 1)))) (.add (.neg (.num 1 1)) (.pow (.var 2) 2))))),
  .div (.sqrt (.div (.add (.neg (.num 1 1)) (.mul (.num 2 1) (.var 2))) (.mul (.add (.var 1) (.mul (.num 2 1) (.pow (.var 1) 2))) (.add (.num 1 1) (.mul (.num 2 1) (.var 2)))))) (.var 2),
  .div (.add (.add (.sqrt (.mul (.mul (.mul (.var 2) (.add (.num 1 1) (.var 2))) (.add (.neg (.num 1 1)) (.mul (.num 2 1) (.var 2)))) (.add (.num 1 1) (.mul (.num 2 1) (.var 2))))) (.sqrt (.div (.mul (.var 2) (.add (.neg (.num 1 1)) (.mul (.num 2 1) (.var 2)))) (.add (.add (.num 1 1) (.mul (.num 3 1) (.var 2))) (.mul (.num 2 1) (.pow (.var 2) 2)))))) (.sqrt (.div (.mul (.var 2) (.add (.neg (.num 1 1)) (.mul (.num 4 1) (.pow (.var 2) 2)))) (.add (.num 1 1) (.var 2))))) (.sqrt (.mul (.mul (.mul (.var 2) (.add (.num 1 1) (.var 2))) (.add (.num 1 1) (.mul (.num 2 1) (.var 2)))) (.add (.num 3 1) (.mul (.num 2 1) (.var 2))))),
  .div (.add (.add (.sqrt (.mul (.mul (.mul (.var 2) (.add (.num 1 1) (.var 2))) (.add (.neg (.num 1 1)) (.mul (.num 2 1) (.var 2)))) (.add (.num 1 1) (.mul (.num 2 1) (.var 2))))) (.sqrt (.div (.mul (.var 2) (.add (.neg (.num 1 1)) (.mul (.num 2 1) (.var 2)))) (.add (.add (.num 1 1) (.mul (.num 3 1) (.var 2))) (.mul (.num 2 1) (.pow (.var 2) 2)))))) (.sqrt (.div (.mul (.var 2) (.add (.neg (.num 1 1)) (.mul (.num 4 1) (.pow (.var 2) 2)))) (.add (.num 1 1) (.var 2))))) (.sqrt (.mul (.mul (.mul (.mul (.mul (.var 1) (.add (.num 1 1) (.mul (.num 2 1) (.var 1)))) (.var 2)) (.add (.num 1 1) (.var 2))) (.add (.num 1 1) (.mul (.num 2 1) (.var 2)))) (.add (.num 3 1) (.mul (.num 2 1) (.var 2))))),
  .div (.mul (.add (.num 1 1) (.var 1)) (.sqrt (.div (.mul (.var 1) (.add (.neg (.num 1 1)) (.mul (.num 2 1) (.var 1)))) (.add (.add (.num 1 1) (.mul (.num 3 1) (.var 1))) (.mul (.num 2 1) (.pow (.var 1) 2)))))) (.var 1),
  .div (.mul (.add (.num 1 1) (.var 1)) (.sqrt (.div (.mul (.var 1) (.add (.neg (.num 1 1)) (.mul (.num 2 1) (.var 1)))) (.add (.add (.num 1 1) (.mul (.num 3 1) (.var 1))) (.mul (.num 2 1) (.pow (.var 1) 2)))))) (.mul (.var 1) (.var 2)),
  .div (.mul (.add (.num 1 1) (.var 1)) (.sqrt (.div (.mul (.var 1) (.add (.neg (.num 1 1)) (.mul (.num 2 1) (.var 1)))) (.add (.add (.num 1 1) (.mul (.num 3 1) (.var 1))) (.mul (.num 2 1) (.pow (.var 1) 2)))))) (.mul (.mul (.var 1) (.var 2)) (.add (.num 1 1) (.mul (.num 2 1) (.var 2)))),
  .div (.num 1 1) (.sqrt (.mul (.add (.num 1 1) (.var 1)) (.add (.num 1 1) (.mul (.num 2 1) (.var 1))))),
  .div (.num 1 1) (.mul (.sqrt (.mul (.add (.num 1 1) (.var 1)) (.add (.num 1 1) (.mul (.num 2 1) (.var 1))))) (.var 2)),
  .div (.num 1 1) (.mul (.sqrt (.add (.add (.num 1 1) (.mul (.num 3 1) (.var 1))) (.mul (.num 2 1) (.pow (.var 1) 2)))) (.add (.var 2) (.mul (.num 2 1) (.pow (.var 2) 2)))),
  .add (.add (.add (.sqrt (.div (.mul (.add (.neg (.num 1 1)) (.mul (.num 2 1) (.var 1))) (.add (.neg (.num 1 1)) (.var 2))) (.mul (.mul (.mul (.var 1) (.add (.add (.num 1 1) (.mul (.num 3 1) (.var 1))) (.mul (.num 2 1) (.pow (.var 1) 2)))) (.pow (.var 2) 2)) (.add (.num 1 1) (.var 2))))) (.div (.mul (.mul (.var 1) (.add (.neg (.num 1 1)) (.mul (.num 2 1) (.var 1)))) (.add (.neg (.num 1 1)) (.var 2))) (.sqrt (.mul (.mul (.mul (.mul (.var 1) (.add (.num 1 1) (.var 1))) (.add (.neg (.num 1 1)) (.mul (.num 4 1) (.pow (.var 1) 2)))) (.add (.neg (.num 1 1)) (.var 2))) (.add (.num 1 1) (.var 2)))))) (.div (.mul (.var 1) (.add (.neg (.num 1 1)) (.mul (.num 2 1) (.var 1)))) (.sqrt (.div (.mul (.mul (.mul (.mul (.var 1) (.add (.num 1 1) (.var 1))) (.add (.neg (.num 1 1)) (.mul (.num 4 1) (.pow (.var 1) 2)))) (.pow (.var 2) 2)) (.add (.num 1 1) (.var 2))) (.add (.neg (.num 1 1)) (.var 2)))))) (.div (.add (.neg (.num 1 1)) (.var 2)) (.sqrt (.div (.mul (.mul (.mul (.var 1) (.add (.num 1 1) (.var 1))) (.add (.num 1 1) (.mul (.num 2 1) (.var 1)))) (.add (.neg (.num 1 1)) (.pow (.var 2) 2))) (.add (.neg (.num 1 1)) (.mul (.num 2 1) (.var 1)))))),
  .div (.add (.add (.sub (.add (.add (.neg (.mul (.mul (.mul (.var 1) (.add (.num 1 1) (.var 1))) (.pow (.add (.num 1 1) (.var 2)) 2)) (.sqrt (.div (.mul (.mul (.var 1) (.add (.num 1 1) (.var 1))) (.add (.neg (.num 1 1)) (.mul (.num 2 1) (.var 2)))) (.add (.neg (.num 1 1)) (.mul (.num 2 1) (.var 1))))))) (.mul (.mul (.mul (.mul (.num 2 1) (.pow (.var 1) 2)) (.add (.num 1 1) (.var 1))) (.pow (.add (.num 1 1) (.var 2)) 2)) (.sqrt (.div (.mul (.mul (.var 1) (.add (.num 1 1) (.var 1))) (.add (.neg (.num 1 1)) (.mul (.num 2 1) (.var 2)))) (.add (.neg (.num 1 1)) (.mul (.num 2 1) (.var 1))))))) (.mul (.mul (.add (.num 1 1) (.var 1)) (.pow (.add (.num 1 1) (.var 2)) 2)) (.sqrt (.mul (.mul (.var 1) (.add (.add (.neg (.num 1 1)) (.var 1)) (.mul (.num 2 1) (.pow (.var 1) 2)))) (.add (.neg (.num 1 1)) (.mul (.num 2 1) (.var 2))))))) (.mul (.var 1) (.sqrt (.div (.mul (.mul (.mul (.mul (.var 1) (.pow (.add (.num 1 1) (.var 1)) 3)) (.pow (.var 2) 2)) (.pow (.add (.num 1 1) (.var 2)) 4)) (.add (.neg (.num 1 1)) (.mul (.num 2 1) (.var 2)))) (.add (.neg (.num 1 1)) (.mul (.num 2 1) (.var 1))))))) (.mul (.mul (.num 2 1) (.pow (.var 1) 2)) (.sqrt (.div (.mul (.mul (.mul (.mul (.var 1) (.pow (.add (.num 1 1) (.var 1)) 3)) (.pow (.var 2) 2)) (.pow (.add (.num 1 1) (.var 2)) 4)) (.add (.neg (.num 1 1)) (.mul (.num 2 1) (.var 2)))) (.add (.neg (.num 1 1)) (.mul (.num 2 1) (.var 1))))))) (.sqrt (.mul (.mul (.mul (.mul (.mul (.var 1) (.pow (.add (.num 1 1) (.var 1)) 3)) (.add (.neg (.num 1 1)) (.mul (.num 2 1) (.var 1)))) (.pow (.var 2) 2)) (.pow (.add (.num 1 1) (.var 2)) 4)) (.add (.neg (.num 1 1)) (.mul (.num 2 1) (.var 2)))))) (.mul (.mul (.mul (.mul (.var 1) (.pow (.add (.num 1 1) (.var 1)) 2)) (.var 2)) (.pow (.add (.num 1 1) (.var 2)) 3)) (.sqrt (.mul (.add (.num 1 1) (.mul (.num 2 1) (.var 1))) (.add (.num 1 1) (.mul (.num 2 1) (.var 2)))))),
  .div (.add (.add (.neg (.sqrt (.div (.mul (.mul (.add (.num 1 1) (.var 1)) (.pow (.var 2) 3)) (.add (.num 1 1) (.var 2))) (.add (.neg (.num 1 1)) (.var 2))))) (.sqrt (.div (.mul (.mul (.add (.num 1 1) (.var 1)) (.pow (.var 2) 5)) (.add (.num 1 1) (.var 2))) (.add (.neg (.num 1 1)) (.var 2))))) (.sqrt (.mul (.mul (.add (.num 1 1) (.var 1)) (.var 2)) (.add (.neg (.num 1 1)) (.pow (.var 2) 2))))) (.mul (.mul (.mul (.add (.num 1 1) (.var 1)) (.sqrt (.add (.num 1 1) (.mul (.num 2 1) (.var 1))))) (.hpow (.var 2) 1)) (.add (.num 1 1) (.var 2))),
  .div (.sqrt (.div (.add (.neg (.num 1 1)) (.mul (.num 4 1) (.pow (.var 2) 2))) (.add (.add (.num 1 1) (.mul (.num 3 1) (.var 1))) (.mul (.num 2 1) (.pow (.var 1) 2))))) (.add (.var 2) (.mul (.num 2 1) (.pow (.var 2) 2))),
  .div (.add (.add (.sub (.add (.add (.sub (.add (.add (.neg (.sqrt (.div (.mul (.mul (.mul (.mul (.var 1) (.var 2)) (.add (.num 1 1) (.var 2))) (.add (.neg (.num 1 1)) (.mul (.num 2 1) (.var 2)))) (.add (.num 1 1) (.mul (.num 2 1) (.var 2)))) (.add (.neg (.num 1 1)) (.mul (.num 2 1) (.var 1)))))) (.mul (.num 2 1) (.sqrt (.div (.mul (.mul (.mul (.mul (.pow (.var 1) 3) (.var 2)) (.add (.num 1 1) (.var 2))) (.add (.neg (.num 1 1)) (.mul (.num 2 1) (.var 2)))) (.add (.num 1 1) (.mul (.num 2 1) (.var 2)))) (.add (.neg (.num 1 1)) (.mul (.num 2 1) (.var 1))))))) (.sqrt (.div (.mul (.mul (.mul (.mul (.add (.neg (.num 1 1)) (.mul (.num 2 1) (.var 1))) (.var 2)) (.add (.num 1 1) (.var 2))) (.add (.neg (.num 1 1)) (.mul (.num 2 1) (.var 2)))) (.add (.num 1 1) (.mul (.num 2 1) (.var 2)))) (.var 1)))) (.sqrt (.div (.mul (.mul (.var 1) (.var 2)) (.add (.neg (.num 1 1)) (.mul (.num 2 1) (.var 2)))) (.mul (.add (.neg (.num 1 1)) (.mul (.num 2 1) (.var 1))) (.add (.add (.num 1 1) (.mul (.num 3 1) (.var 2))) (.mul (.num 2 1) (.pow (.var 2) 2))))))) (.mul (.num 2 1) (.sqrt (.div (.mul (.mul (.pow (.var 1) 3) (.var 2)) (.add (.neg (.num 1 1)) (.mul (.num 2 1) (.var 2)))) (.mul (.add (.neg (.num 1 1)) (.mul (.num 2 1) (.var 1))) (.add (.add (.num 1 1) (.mul (.num 3 1) (.var 2))) (.mul (.num 2 1) (.pow (.var 2) 2)))))))) (.sqrt (.div (.mul (.mul (.add (.neg (.num 1 1)) (.mul (.num 2 1) (.var 1))) (.var 2)) (.add (.neg (.num 1 1)) (.mul (.num 2 1) (.var 2)))) (.mul (.var 1) (.add (.add (.num 1 1) (.mul (.num 3 1) (.var 2))) (.mul (.num 2 1) (.pow (.var 2) 2))))))) (.sqrt (.div (.mul (.mul (.var 1) (.var 2)) (.add (.neg (.num 1 1)) (.mul (.num 4 1) (.pow (.var 2) 2)))) (.mul (.add (.neg (.num 1 1)) (.mul (.num 2 1) (.var 1))) (.add (.num 1 1) (.var 2)))))) (.mul (.mul (.num 2 1) (.var 1)) (.sqrt (.div (.mul (.mul (.var 1) (.var 2)) (.add (.neg (.num 1 1)) (.mul (.num 4 1) (.pow (.var 2) 2)))) (.mul (.add (.neg (.num 1 1)) (.mul (.num 2 1) (.var 1))) (.add (.num 1 1) (.var 2))))))) (.sqrt (.div (.mul (.mul (.add (.neg (.num 1 1)) (.mul (.num 2 1) (.var 1))) (.var 2)) (.add (.neg (.num 1 1)) (.mul (.num 4 1) (.pow (.var 2) 2)))) (.mul (.var 1) (.add (.num 1 1) (.var 2)))))) (.sqrt (.mul (.mul (.mul (.mul (.mul (.add (.num 1 1) (.var 1)) (.add (.num 1 1) (.mul (.num 2 1) (.var 1)))) (.var 2)) (.add (.num 1 1) (.var 2))) (.add (.num 1 1) (.mul (.num 2 1) (.var 2)))) (.add (.num 3 1) (.mul (.num 2 1) (.var 2))))),
  .div (.mul (.sqrt (.div (.var 1) (.add (.add (.num 3 1) (.mul (.num 5 1) (.var 2))) (.mul (.num 2 1) (.pow (.var 2) 2))))) (.add (.add (.add (.add (.add (.mul (.var 2) (.sqrt (.div (.mul (.mul (.add (.num 1 1) (.var 1)) (.add (.num 1 1) (.mul (.num 2 1) (.var 1)))) (.add (.neg (.num 1 1)) (.mul (.num 2 1) (.var 2)))) (.mul (.var 1) (.add (.num 1 1) (.var 2)))))) (.mul (.var 2) (.sqrt (.div (.mul (.mul (.mul (.var 1) (.add (.num 1 1) (.var 1))) (.add (.num 1 1) (.mul (.num 2 1) (.var 1)))) (.add (.neg (.num 1 1)) (.mul (.num 2 1) (.var 2)))) (.add (.num 1 1) (.var 2)))))) (.mul (.mul (.var 2) (.sqrt (.div (.mul (.mul (.add (.num 1 1) (.var 1)) (.add (.num 1 1) (.mul (.num 2 1) (.var 1)))) (.add (.neg (.num 1 1)) (.mul (.num 2 1) (.var 2)))) (.mul (.var 1) (.add (.num 1 1) (.var 2)))))) (.add (.num 1 1) (.mul (.num 2 1) (.var 2))))) (.mul (.mul (.var 2) (.sqrt (.div (.mul (.mul (.mul (.var 1) (.add (.num 1 1) (.var 1))) (.add (.num 1 1) (.mul (.num 2 1) (.var 1)))) (.add (.neg (.num 1 1)) (.mul (.num 2 1) (.var 2)))) (.add (.num 1 1) (.var 2))))) (.add (.num 1 1) (.mul (.num 2 1) (.var 2))))) (.mul (.mul (.var 2) (.add (.num 1 1) (.mul (.num 2 1) (.var 2)))) (.sqrt (.div (.mul (.mul (.add (.num 1 1) (.var 1)) (.add (.num 1 1) (.mul (.num 2 1) (.var 1)))) (.add (.add (.neg (.num 1 1)) (.var 2)) (.mul (.num 2 1) (.pow (.var 2) 2)))) (.var 1))))) (.mul (.mul (.mul (.var 1) (.var 2)) (.add (.num 1 1) (.mul (.num 2 1) (.var 2)))) (.sqrt (.div (.mul (.mul (.add (.num 1 1) (.var 1)) (.add (.num 1 1) (.mul (.num 2 1) (.var 1)))) (.add (.add (.neg (.num 1 1)) (.var 2)) (.mul (.num 2 1) (.pow (.var 2) 2)))) (.var 1)))))) (.mul (.mul (.mul (.pow (.add (.num 1 1) (.var 1)) 2) (.add (.num 1 1) (.mul (.num 2 1) (.var 1)))) (.var 2)) (.add (.num 1 1) (.mul (.num 2 1) (.var 2)))),
  .div (.mul (.add (.num 3 1) (.mul (.num 2 1) (.var 1))) (.sqrt (.div (.mul (.var 1) (.add (.num 1 1) (.var 1))) (.add (.num 3 1) (.mul (.mul (.num 4 1) (.var 1)) (.add (.num 2 1) (.var 1))))))) (.add (.num 1 1) (.var 1)),
  .div (.mul (.add (.num 3 1) (.mul (.num 2 1) (.var 1))) (.sqrt (.div (.mul (.var 1) (.add (.num 1 1) (.var 1))) (.add (.num 3 1) (.mul (.mul (.num 4 1) (.var 1)) (.add (.num 2 1) (.var 1))))))) (.mul (.add (.num 1 1) (.var 1)) (.var 2)),
  .div (.sqrt (.div (.mul (.var 1) (.add (.num 3 1) (.mul (.mul (.num 4 1) (.var 1)) (.add (.num 2 1) (.var 1))))) (.add (.num 1 1) (.var 1)))) (.mul (.mul (.add (.num 1 1) (.mul (.num 2 1) (.var 1))) (.var 2)) (.add (.num 1 1) (.mul (.num 2 1) (.var 2)))),
  .div (.add (.add (.sub (.sub (.add (.sub (.add (.add (.sqrt (.div (.mul (.var 1) (.add (.neg (.num 1 1)) (.var 2))) (.mul (.add (.num 1 1) (.var 1)) (.var 2)))) (.mul (.add (.num 1 1) (.mul (.num 2 1) (.var 1))) (.sqrt (.div (.mul (.var 1) (.add (.neg (.num 1 1)) (.var 2))) (.mul (.add (.num 1 1) (.var 1)) (.var 2)))))) (.mul (.add (.num 1 1) (.mul (.num 2 1) (.var 1))) (.sqrt (.div (.mul (.mul (.var 1) (.add (.num 1 1) (.var 1))) (.add (.neg (.num 1 1)) (.var 2))) (.var 2))))) (.mul (.mul (.add (.num 1 1) (.mul (.num 2 1) (.var 1))) (.sqrt (.div (.mul (.var 1) (.add (.num 1 1) (.var 1))) (.mul (.add (.neg (.num 1 1)) (.var 2)) (.var 2))))) (.var 2))) (.mul (.mul (.add (.num 1 1) (.mul (.num 2 1) (.var 1))) (.sqrt (.div (.mul (.var 1) (.add (.num 1 1) (.var 1))) (.mul (.add (.neg (.num 1 1)) (.var 2)) (.var 2))))) (.pow (.var 2) 2))) (.sqrt (.div (.mul (.var 1) (.var 2)) (.mul (.add (.num 1 1) (.var 1)) (.add (.neg (.num 1 1)) (.var 2)))))) (.mul (.add (.num 1 1) (.mul (.num 2 1) (.var 1))) (.sqrt (.div (.mul (.var 1) (.var 2)) (.mul (.add (.num 1 1) (.var 1)) (.add (.neg (.num 1 1)) (.var 2))))))) (.mul (.mul (.add (.num 1 1) (.mul (.num 2 1) (.var 1))) (.var 2)) (.sqrt (.div (.mul (.var 1) (.var 2)) (.mul (.add (.num 1 1) (.var 1)) (.add (.neg (.num 1 1)) (.var 2))))))) (.sqrt (.div (.mul (.var 1) (.pow (.var 2) 3)) (.mul (.add (.num 1 1) (.var 1)) (.add (.neg (.num 1 1)) (.var 2)))))) (.mul (.add (.num 1 1) (.var 1)) (.sqrt (.mul (.mul (.add (.num 3 1) (.mul (.mul (.num 4 1) (.var 1)) (.add (.num 2 1) (.var 1)))) (.var 2)) (.add (.num 1 1) (.var 2))))),
  .div (.add (.add (.add (.add (.add (.sqrt (.mul (.mul (.mul (.mul (.add (.num 1 1) (.mul (.num 2 1) (.var 1))) (.var 2)) (.add (.num 1 1) (.var 2))) (.add (.neg (.num 1 1)) (.mul (.num 2 1) (.var 2)))) (.add (.num 1 1) (.mul (.num 2 1) (.var 2))))) (.sqrt (.mul (.mul (.mul (.mul (.pow (.add (.num 1 1) (.mul (.num 2 1) (.var 1))) 3) (.var 2)) (.add (.num 1 1) (.var 2))) (.add (.neg (.num 1 1)) (.mul (.num 2 1) (.var 2)))) (.add (.num 1 1) (.mul (.num 2 1) (.var 2)))))) (.sqrt (.mul (.mul (.mul (.mul (.mul (.pow (.add (.num 1 1) (.var 1)) 2) (.pow (.add (.num 1 1) (.mul (.num 2 1) (.var 1))) 3)) (.var 2)) (.add (.num 1 1) (.var 2))) (.add (.neg (.num 1 1)) (.mul (.num 2 1) (.var 2)))) (.add (.num 1 1) (.mul (.num 2 1) (.var 2)))))) (.mul (.var 2) (.sqrt (.mul (.mul (.mul (.mul (.mul (.pow (.add (.num 1 1) (.var 1)) 2) (.pow (.add (.num 1 1) (.mul (.num 2 1) (.var 1))) 3)) (.var 2)) (.add (.num 1 1) (.var 2))) (.add (.neg (.num 1 1)) (.mul (.num 2 1) (.var 2)))) (.add (.num 1 1) (.mul (.num 2 1) (.var 2))))))) (.sqrt (.mul (.mul (.mul (.mul (.add (.num 1 1) (.mul (.num 2 1) (.var 1))) (.pow (.var 2) 3)) (.add (.num 1 1) (.var 2))) (.add (.neg (.num 1 1)) (.mul (.num 2 1) (.var 2)))) (.add (.num 1 1) (.mul (.num 2 1) (.var 2)))))) (.sqrt (.mul (.mul (.mul (.add (.num 1 1) (.var 2)) (.add (.neg (.num 1 1)) (.mul (.num 2 1) (.var 2)))) (.add (.num 1 1) (.mul (.num 2 1) (.var 2)))) (.pow (.add (.var 2) (.mul (.mul (.num 2 1) (.var 1)) (.var 2))) 3)))) (.sqrt (.div (.mul (.mul (.mul (.mul (.pow (.add (.num 1 1) (.var 1)) 3) (.pow (.add (.num 1 1) (.mul (.num 2 1) (.var 1))) 2)) (.add (.num 3 1) (.mul (.num 2 1) (.var 1)))) (.pow (.add (.num 1 1) (.mul (.num 2 1) (.var 2))) 2)) (.pow (.add (.var 2) (.pow (.var 2) 2)) 3)) (.var 1))),
  .div (.mul (.add (.num 3 1) (.mul (.num 2 1) (.var 1))) (.add (.add (.sqrt (.mul (.mul (.add (.num 1 1) (.var 2)) (.add (.neg (.num 1 1)) (.mul (.num 2 1) (.var 2)))) (.add (.num 1 1) (.mul (.num 2 1) (.var 2))))) (.mul (.num 2 1) (.sqrt (.add (.add (.neg (.num 4 1)) (.mul (.num 4 1) (.var 2))) (.div (.num 3 1) (.add (.num 1 1) (.var 2))))))) (.mul (.mul (.num 2 1) (.var 2)) (.add (.sqrt (.mul (.mul (.add (.num 1 1) (.var 2)) (.add (.neg (.num 1 1)) (.mul (.num 2 1) (.var 2)))) (.add (.num 1 1) (.mul (.num 2 1) (.var 2))))) (.sqrt (.add (.add (.neg (.num 4 1)) (.mul (.num 4 1) (.var 2))) (.div (.num 3 1) (.add (.num 1 1) (.var 2))))))))) (.mul (.add (.num 1 1) (.mul (.num 2 1) (.var 2))) (.sqrt (.div (.mul (.mul (.mul (.mul (.mul (.add (.num 1 1) (.var 1)) (.add (.num 1 1) (.mul (.num 2 1) (.var 1)))) (.add (.num 3 1) (.mul (.num 2 1) (.var 1)))) (.add (.num 1 1) (.var 2))) (.add (.num 1 1) (.mul (.num 2 1) (.var 2)))) (.add (.num 3 1) (.mul (.num 2 1) (.var 2)))) (.var 1)))),
  .neg (.div (.sqrt (.num 6 1)) (.sqrt (.mul (.mul (.mul (.add (.neg (.num 1 1)) (.var 2)) (.var 2)) (.add (.neg (.num 1 1)) (.mul (.num 2 1) (.var 2)))) (.add (.num 1 1) (.mul (.num 2 1) (.var 2)))))),
  .neg (.div (.sqrt (.num 2 1)) (.mul (.add (.num 1 1) (.mul (.num 2 1) (.var 1))) (.sqrt (.mul (.add (.neg (.num 1 1)) (.var 2)) (.var 2))))),
  .neg (.div (.sqrt (.num 6 1)) (.mul (.add (.num 1 1) (.mul (.num 2 1) (.var 1))) (.sqrt (.mul (.mul (.mul (.add (.neg (.num 1 1)) (.var 2)) (.var 2)) (.add (.neg (.num 1 1)) (.mul (.num 2 1) (.var 2)))) (.add (.num 1 1) (.mul (.num 2 1) (.var 2))))))),
  .neg (.div (.mul (.add (.num 1 1) (.var 2)) (.sqrt (.div (.mul (.add (.neg (.num 2 1)) (.var 2)) (.var 2)) (.add (.neg (.num 1 1)) (.pow (.var 2) 2))))) (.var 2)),
  .neg (.div (.mul (.add (.num 1 1) (.var 2)) (.sqrt (.add (.sub (.num 3 1) (.div (.num 30 1) (.add (.num 1 1) (.var 2)))) (.div (.num 36 1) (.add (.num 1 1) (.mul (.num 2 1) (.var 2))))))) (.mul (.add (.neg (.num 1 1)) (.var 2)) (.var 2))),
  .div (.sub (.add (.num 2 1) (.var 2)) (.pow (.var 2) 2)) (.mul (.add (.num 1 1) (.mul (.num 2 1) (.var 1))) (.sqrt (.mul (.mul (.mul (.add (.neg (.num 2 1)) (.var 2)) (.add (.neg (.num 1 1)) (.var 2))) (.var 2)) (.add (.num 1 1) (.var 2))))),
  .neg (.div (.mul (.add (.num 1 1) (.var 2)) (.sqrt (.add (.sub (.num 3 1) (.div (.num 30 1) (.add (.num 1 1) (.var 2)))) (.div (.num 36 1) (.add (.num 1 1) (.mul (.num 2 1) (.var 2))))))) (.mul (.mul (.add (.num 1 1) (.mul (.num 2 1) (.var 1))) (.add (.neg (.num 1 1)) (.var 2))) (.var 2))),
  .div (.neg (.num 3 1)) (.mul (.add (.num 1 1) (.mul (.num 2 1) (.var 1))) (.add (.var 2) (.mul (.num 2 1) (.pow (.var 2) 2)))),
  .div (.sub (.add (.neg (.num 9 1)) (.mul (.num 13 1) (.pow (.var 2) 2))) (.mul (.num 4 1) (.pow (.var 2) 4))) (.mul (.var 2) (.sqrt (.add (.neg (.num 9 1)) (.mul (.pow (.var 2) 2) (.pow (.sub (.num 7 1) (.mul (.num 4 1) (.pow (.var 2) 2))) 2))))),
  .neg (.div (.mul (.sqrt (.num 3 1)) (.add (.add (.neg (.num 3 1)) (.var 2)) (.mul (.num 2 1) (.pow (.var 2) 2)))) (.mul (.var 2) (.sqrt (.mul (.mul (.mul (.add (.neg (.num 1 1)) (.var 2)) (.add (.num 1 1) (.var 2))) (.add (.num 1 1) (.mul (.num 2 1) (.var 2)))) (.add (.num 3 1) (.mul (.num 2 1) (.var 2))))))),
  .neg (.div (.sqrt (.num 6 1)) (.sqrt (.mul (.mul (.mul (.var 2) (.add (.num 1 1) (.var 2))) (.add (.num 1 1) (.mul (.num 2 1) (.var 2)))) (.add (.num 3 1) (.mul (.num 2 1) (.var 2)))))),
  .div (.sub (.sub (.div (.mul (.neg (.num 3 1)) (.add (.num 3 1) (.mul (.mul (.num 4 1) (.add (.neg (.num 2 1)) (.var 2))) (.var 2)))) (.sqrt (.div (.mul (.mul (.mul (.mul (.mul (.mul (.add (.num 1 1) (.mul (.num 2 1) (.var 1))) (.pow (.var 2) 2)) (.add (.num 1 1) (.var 2))) (.add (.neg (.num 3 1)) (.mul (.num 2 1) (.var 2)))) (.add (.neg (.num 1 1)) (.mul (.num 2 1) (.var 2)))) (.add (.num 1 1) (.mul (.num 2 1) (.var 2)))) (.add (.num 3 1) (.mul (.num 2 1) (.var 2)))) (.add (.neg (.num 1 1)) (.var 2))))) (.div (.mul (.num 6 1) (.sqrt (.div (.add (.sub (.num 3 1) (.mul (.num 5 1) (.var 2))) (.mul (.num 2 1) (.pow (.var 2) 2))) (.mul (.add (.num 1 1) (.mul (.num 2 1) (.var 1))) (.add (.add (.add (.sub (.neg (.num 3 1)) (.mul (.num 5 1) (.var 2))) (.mul (.num 10 1) (.pow (.var 2) 2))) (.mul (.num 20 1) (.pow (.var 2) 3))) (.mul (.num 8 1) (.pow (.var 2) 4))))))) (.var 2))) (.div (.mul (.mul (.add (.neg (.num 1 1)) (.var 2)) (.add (.neg (.num 3 1)) (.mul (.num 2 1) (.var 2)))) (.add (.neg (.num 1 1)) (.mul (.num 2 1) (.var 2)))) (.sqrt (.mul (.add (.num 1 1) (.mul (.num 2 1) (.var 1))) (.add (.neg (.num 9 1)) (.mul (.pow (.var 2) 2) (.pow (.sub (.num 7 1) (.mul (.num 4 1) (.pow (.var 2) 2))) 2))))))) (.sqrt (.add (.num 1 1) (.mul (.num 2 1) (.var 1)))),
  .div (.mul (.sqrt (.num 3 1)) (.sub (.add (.div (.add (.neg (.num 1 1)) (.mul (.sub (.num 3 1) (.mul (.num 2 1) (.var 2))) (.var 2))) (.mul (.hpow (.add (.num 1 1) (.var 2)) 1) (.sqrt (.mul (.mul (.mul (.add (.num 1 1) (.mul (.num 2 1) (.var 1))) (.add (.neg (.num 1 1)) (.var 2))) (.add (.num 1 1) (.mul (.num 2 1) (.var 2)))) (.add (.num 3 1) (.mul (.num 2 1) (.var 2))))))) (.div (.sub (.add (.neg (.num 3 1)) (.mul (.num 9 1) (.var 2))) (.mul (.num 6 1) (.pow (.var 2) 2))) (.sqrt (.mul (.mul (.mul (.mul (.mul (.add (.num 1 1) (.mul (.num 2 1) (.var 1))) (.add (.neg (.num 1 1)) (.var 2))) (.pow (.var 2) 2)) (.pow (.add (.num 1 1) (.var 2)) 3)) (.add (.num 1 1) (.mul (.num 2 1) (.var 2)))) (.add (.num 3 1) (.mul (.num 2 1) (.var 2))))))) (.div (.mul (.num 6 1) (.sqrt (.div (.add (.neg (.num 1 1)) (.var 2)) (.mul (.mul (.add (.num 1 1) (.mul (.num 2 1) (.var 1))) (.pow (.add (.num 1 1) (.var 2)) 3)) (.add (.num 3 1) (.mul (.mul (.num 4 1) (.var 2)) (.add (.num 2 1) (.var 2)))))))) (.var 2)))) (.sqrt (.add (.num 1 1) (.mul (.num 2 1) (.var 1)))),
  .neg (.div (.sqrt (.num 6 1)) (.mul (.add (.num 1 1) (.mul (.num 2 1) (.var 1))) (.sqrt (.mul (.mul (.mul (.var 2) (.add (.num 1 1) (.var 2))) (.add (.num 1 1) (.mul (.num 2 1) (.var 2)))) (.add (.num 3 1) (.mul (.num 2 1) (.var 2))))))),
  .div (.sub (.sub (.add (.sub (.add (.mul (.neg (.num 6 1)) (.sqrt (.div (.mul (.mul (.mul (.mul (.add (.neg (.num 1 1)) (.var 2)) (.var 2)) (.add (.num 2 1) (.var 2))) (.add (.neg (.num 1 1)) (.mul (.num 2 1) (.var 2)))) (.add (.num 3 1) (.mul (.num 2 1) (.var 2)))) (.add (.num 1 1) (.mul (.num 2 1) (.var 2)))))) (.mul (.num 9 1) (.sqrt (.div (.mul (.mul (.mul (.pow (.var 2) 3) (.add (.num 2 1) (.var 2))) (.add (.neg (.num 1 1)) (.mul (.num 2 1) (.var 2)))) (.add (.num 3 1) (.mul (.num 2 1) (.var 2)))) (.mul (.add (.neg (.num 1 1)) (.var 2)) (.add (.num 1 1) (.mul (.num 2 1) (.var 2)))))))) (.mul (.num 9 1) (.sqrt (.div (.mul (.mul (.mul (.pow (.var 2) 5) (.add (.num 2 1) (.var 2))) (.add (.neg (.num 1 1)) (.mul (.num 2 1) (.var 2)))) (.add (.num 3 1) (.mul (.num 2 1) (.var 2)))) (.mul (.add (.neg (.num 1 1)) (.var 2)) (.add (.num 1 1) (.mul (.num 2 1) (.var 2)))))))) (.mul (.num 4 1) (.sqrt (.div (.mul (.mul (.mul (.mul (.pow (.var 2) 3) (.add (.num 2 1) (.var 2))) (.add (.neg (.num 1 1)) (.mul (.num 2 1) (.var 2)))) (.add (.num 1 1) (.mul (.num 2 1) (.var 2)))) (.add (.num 3 1) (.mul (.num 2 1) (.var 2)))) (.add (.neg (.num 1 1)) (.var 2)))))) (.mul (.num 3 1) (.sqrt (.div (.mul (.mul (.mul (.mul (.pow (.var 2) 5) (.add (.num 2 1) (.var 2))) (.add (.neg (.num 1 1)) (.mul (.num 2 1) (.var 2)))) (.add (.num 1 1) (.mul (.num 2 1) (.var 2)))) (.add (.num 3 1) (.mul (.num 2 1) (.var 2)))) (.add (.neg (.num 1 1)) (.var 2)))))) (.sqrt (.div (.mul (.mul (.mul (.mul (.pow (.var 2) 7) (.add (.num 2 1) (.var 2))) (.add (.neg (.num 1 1)) (.mul (.num 2 1) (.var 2)))) (.add (.num 1 1) (.mul (.num 2 1) (.var 2)))) (.add (.num 3 1) (.mul (.num 2 1) (.var 2)))) (.add (.neg (.num 1 1)) (.var 2))))) (.mul (.mul (.mul (.mul (.var 2) (.hpow (.add (.num 1 1) (.var 2)) 1)) (.add (.num 2 1) (.var 2))) (.sqrt (.add (.num 1 1) (.mul (.num 2 1) (.var 2))))) (.add (.num 3 1) (.mul (.num 2 1) (.var 2)))),
  .div (.sub (.sub (.add (.sub (.add (.mul (.neg (.num 6 1)) (.sqrt (.div (.mul (.mul (.mul (.mul (.add (.neg (.num 1 1)) (.var 2)) (.var 2)) (.add (.num 2 1) (.var 2))) (.add (.neg (.num 1 1)) (.mul (.num 2 1) (.var 2)))) (.add (.num 3 1) (.mul (.num 2 1) (.var 2)))) (.add (.num 1 1) (.mul (.num 2 1) (.var 2)))))) (.mul (.num 9 1) (.sqrt (.div (.mul (.mul (.mul (.pow (.var 2) 3) (.add (.num 2 1) (.var 2))) (.add (.neg (.num 1 1)) (.mul (.num 2 1) (.var 2)))) (.add (.num 3 1) (.mul (.num 2 1) (.var 2)))) (.mul (.add (.neg (.num 1 1)) (.var 2)) (.add (.num 1 1) (.mul (.num 2 1) (.var 2)))))))) (.mul (.num 9 1) (.sqrt (.div (.mul (.mul (.mul (.pow (.var 2) 5) (.add (.num 2 1) (.var 2))) (.add (.neg (.num 1 1)) (.mul (.num 2 1) (.var 2)))) (.add (.num 3 1) (.mul (.num 2 1) (.var 2)))) (.mul (.add (.neg (.num 1 1)) (.var 2)) (.add (.num 1 1) (.mul (.num 2 1) (.var 2)))))))) (.mul (.num 4 1) (.sqrt (.div (.mul (.mul (.mul (.mul (.pow (.var 2) 3) (.add (.num 2 1) (.var 2))) (.add (.neg (.num 1 1)) (.mul (.num 2 1) (.var 2)))) (.add (.num 1 1) (.mul (.num 2 1) (.var 2)))) (.add (.num 3 1) (.mul (.num 2 1) (.var 2)))) (.add (.neg (.num 1 1)) (.var 2)))))) (.mul (.num 3 1) (.sqrt (.div (.mul (.mul (.mul (.mul (.pow (.var 2) 5) (.add (.num 2 1) (.var 2))) (.add (.neg (.num 1 1)) (.mul (.num 2 1) (.var 2)))) (.add (.num 1 1) (.mul (.num 2 1) (.var 2)))) (.add (.num 3 1) (.mul (.num 2 1) (.var 2)))) (.add (.neg (.num 1 1)) (.var 2)))))) (.sqrt (.div (.mul (.mul (.mul (.mul (.pow (.var 2) 7) (.add (.num 2 1) (.var 2))) (.add (.neg (.num 1 1)) (.mul (.num 2 1) (.var 2)))) (.add (.num 1 1) (.mul (.num 2 1) (.var 2)))) (.add (.num 3 1) (.mul (.num 2 1) (.var 2)))) (.add (.neg (.num 1 1)) (.var 2))))) (.mul (.mul (.mul (.mul (.mul (.add (.num 1 1) (.mul (.num 2 1) (.var 1))) (.var 2)) (.hpow (.add (.num 1 1) (.var 2)) 1)) (.add (.num 2 1) (.var 2))) (.sqrt (.add (.num 1 1) (.mul (.num 2 1) (.var 2))))) (.add (.num 3 1) (.mul (.num 2 1) (.var 2)))),
  .neg (.div (.sqrt (.add (.sub (.num 2 1) (.div (.num 6 1) (.add (.num 1 1) (.var 2)))) (.div (.num 4 1) (.add (.num 1 1) (.mul (.num 2 1) (.var 2)))))) (.add (.var 2) (.mul (.mul (.num 2 1) (.var 1)) (.var 2)))),
  .div (.sub (.sub (.sub (.sub (.neg (.sqrt (.mul (.mul (.mul (.var 2) (.add (.num 2 1) (.var 2))) (.add (.neg (.num 1 1)) (.mul (.num 2 1) (.var 2)))) (.add (.num 3 1) (.mul (.num 2 1) (.var 2)))))) (.mul (.num 2 1) (.sqrt (.mul (.mul (.mul (.pow (.var 2) 3) (.add (.num 2 1) (.var 2))) (.add (.neg (.num 1 1)) (.mul (.num 2 1) (.var 2)))) (.add (.num 3 1) (.mul (.num 2 1) (.var 2))))))) (.mul (.num 18 1) (.sqrt (.div (.mul (.var 2) (.add (.neg (.num 1 1)) (.mul (.num 2 1) (.var 2)))) (.add (.add (.num 6 1) (.mul (.num 7 1) (.var 2))) (.mul (.num 2 1) (.pow (.var 2) 2))))))) (.mul (.num 2 1) (.sqrt (.div (.mul (.var 2) (.add (.neg (.num 3 1)) (.mul (.mul (.num 4 1) (.var 2)) (.add (.num 1 1) (.var 2))))) (.add (.num 2 1) (.var 2)))))) (.mul (.mul (.num 4 1) (.var 2)) (.add (.mul (.num 3 1) (.sqrt (.div (.mul (.var 2) (.add (.neg (.num 1 1)) (.mul (.num 2 1) (.var 2)))) (.add (.add (.num 6 1) (.mul (.num 7 1) (.var 2))) (.mul (.num 2 1) (.pow (.var 2) 2)))))) (.sqrt (.div (.mul (.var 2) (.add (.neg (.num 3 1)) (.mul (.mul (.num 4 1) (.var 2)) (.add (.num 1 1) (.var 2))))) (.add (.num 2 1) (.var 2))))))) (.mul (.add (.num 3 1) (.mul (.num 2 1) (.var 2))) (.sqrt (.mul (.mul (.mul (.var 2) (.add (.num 2 1) (.var 2))) (.add (.num 1 1) (.mul (.num 2 1) (.var 2)))) (.add (.num 5 1) (.mul (.num 2 1) (.var 2)))))),
  .div (.sub (.sub (.sub (.sub (.neg (.sqrt (.mul (.mul (.mul (.var 2) (.add (.num 2 1) (.var 2))) (.add (.neg (.num 1 1)) (.mul (.num 2 1) (.var 2)))) (.add (.num 3 1) (.mul (.num 2 1) (.var 2)))))) (.mul (.num 2 1) (.sqrt (.mul (.mul (.mul (.pow (.var 2) 3) (.add (.num 2 1) (.var 2))) (.add (.neg (.num 1 1)) (.mul (.num 2 1) (.var 2)))) (.add (.num 3 1) (.mul (.num 2 1) (.var 2))))))) (.mul (.num 18 1) (.sqrt (.div (.mul (.var 2) (.add (.neg (.num 1 1)) (.mul (.num 2 1) (.var 2)))) (.add (.add (.num 6 1) (.mul (.num 7 1) (.var 2))) (.mul (.num 2 1) (.pow (.var 2) 2))))))) (.mul (.num 2 1) (.sqrt (.div (.mul (.var 2) (.add (.neg (.num 3 1)) (.mul (.mul (.num 4 1) (.var 2)) (.add (.num 1 1) (.var 2))))) (.add (.num 2 1) (.var 2)))))) (.mul (.mul (.num 4 1) (.var 2)) (.add (.mul (.num 3 1) (.sqrt (.div (.mul (.var 2) (.add (.neg (.num 1 1)) (.mul (.num 2 1) (.var 2)))) (.add (.add (.num 6 1) (.mul (.num 7 1) (.var 2))) (.mul (.num 2 1) (.pow (.var 2) 2)))))) (.sqrt (.div (.mul (.var 2) (.add (.neg (.num 3 1)) (.mul (.mul (.num 4 1) (.var 2)) (.add (.num 1 1) (.var 2))))) (.add (.num 2 1) (.var 2))))))) (.mul (.mul (.add (.num 1 1) (.mul (.num 2 1) (.var 1))) (.add (.num 3 1) (.mul (.num 2 1) (.var 2)))) (.sqrt (.mul (.mul (.mul (.var 2) (.add (.num 2 1) (.var 2))) (.add (.num 1 1) (.mul (.num 2 1) (.var 2)))) (.add (.num 5 1) (.mul (.num 2 1) (.var 2)))))),
  .div (.mul (.mul (.neg (.num 2 1)) (.sqrt (.num 2 1))) (.sqrt (.div (.mul (.mul (.var 1) (.add (.num 1 1) (.var 1))) (.var 2)) (.add (.neg (.num 1 1)) (.var 2))))) (.add (.var 2) (.mul (.mul (.num 2 1) (.var 1)) (.var 2))),
  .div (.mul (.mul (.neg (.num 2 1)) (.sqrt (.num 6 1))) (.sqrt (.div (.add (.var 1) (.pow (.var 1) 2)) (.add (.sub (.sub (.var 2) (.pow (.var 2) 2)) (.mul (.num 4 1) (.pow (.var 2) 3))) (.mul (.num 4 1) (.pow (.var 2) 4)))))) (.add (.num 1 1) (.mul (.num 2 1) (.var 1))),
  .neg (.div (.mul (.sqrt (.div (.var 1) (.mul (.add (.num 1 1) (.mul (.num 2 1) (.var 1))) (.add (.neg (.num 1 1)) (.pow (.var 2) 2))))) (.add (.add (.add (.add (.sub (.sub (.sub (.sub (.add (.mul (.num 2 1) (.sqrt (.div (.mul (.add (.num 1 1) (.var 1)) (.var 2)) (.mul (.add (.num 1 1) (.mul (.num 2 1) (.var 1))) (.add (.neg (.num 2 1)) (.var 2)))))) (.mul (.num 2 1) (.sqrt (.div (.mul (.mul (.add (.num 1 1) (.var 1)) (.add (.num 1 1) (.mul (.num 2 1) (.var 1)))) (.var 2)) (.add (.neg (.num 2 1)) (.var 2)))))) (.sqrt (.div (.mul (.add (.num 1 1) (.var 1)) (.pow (.var 2) 3)) (.mul (.add (.num 1 1) (.mul (.num 2 1) (.var 1))) (.add (.neg (.num 2 1)) (.var 2)))))) (.sqrt (.div (.mul (.mul (.add (.num 1 1) (.var 1)) (.add (.num 1 1) (.mul (.num 2 1) (.var 1)))) (.pow (.var 2) 3)) (.add (.neg (.num 2 1)) (.var 2))))) (.mul (.num 2 1) (.sqrt (.div (.mul (.add (.num 1 1) (.var 1)) (.pow (.var 2) 5)) (.mul (.add (.num 1 1) (.mul (.num 2 1) (.var 1))) (.add (.neg (.num 2 1)) (.var 2))))))) (.mul (.num 2 1) (.sqrt (.div (.mul (.mul (.add (.num 1 1) (.var 1)) (.add (.num 1 1) (.mul (.num 2 1) (.var 1)))) (.pow (.var 2) 5)) (.add (.neg (.num 2 1)) (.var 2)))))) (.sqrt (.div (.mul (.add (.num 1 1) (.var 1)) (.pow (.var 2) 7)) (.mul (.add (.num 1 1) (.mul (.num 2 1) (.var 1))) (.add (.neg (.num 2 1)) (.var 2)))))) (.sqrt (.div (.mul (.mul (.add (.num 1 1) (.var 1)) (.add (.num 1 1) (.mul (.num 2 1) (.var 1)))) (.pow (.var 2) 7)) (.add (.neg (.num 2 1)) (.var 2))))) (.mul (.num 4 1) (.sqrt (.div (.mul (.mul (.mul (.add (.num 1 1) (.var 1)) (.add (.neg (.num 2 1)) (.var 2))) (.var 2)) (.pow (.add (.num 1 1) (.var 2)) 2)) (.add (.num 1 1) (.mul (.num 2 1) (.var 1))))))) (.mul (.mul (.num 4 1) (.var 1)) (.sqrt (.div (.mul (.mul (.mul (.add (.num 1 1) (.var 1)) (.add (.neg (.num 2 1)) (.var 2))) (.var 2)) (.pow (.add (.num 1 1) (.var 2)) 2)) (.add (.num 1 1) (.mul (.num 2 1) (.var 1)))))))) (.mul (.mul (.add (.num 1 1) (.var 1)) (.var 2)) (.add (.num 1 1) (.var 2)))),
  .div (.mul (.mul (.mul (.num 2 1) (.sqrt (.num 3 1))) (.sub (.add (.num 3 1) (.var 2)) (.mul (.num 2 1) (.pow (.var 2) 2)))) (.sqrt (.div (.mul (.var 1) (.add (.num 1 1) (.var 1))) (.add (.sub (.sub (.add (.num 3 1) (.mul (.num 4 1) (.var 2))) (.mul (.num 7 1) (.pow (.var 2) 2))) (.mul (.num 4 1) (.pow (.var 2) 3))) (.mul (.num 4 1) (.pow (.var 2) 4)))))) (.add (.var 2) (.mul (.mul (.num 2 1) (.var 1)) (.var 2))),
  .div (.mul (.mul (.neg (.num 2 1)) (.add (.num 1 1) (.var 1))) (.add (.add (.mul (.num 9 1) (.sqrt (.div (.add (.neg (.num 1 1)) (.var 2)) (.add (.sub (.sub (.num 3 1) (.mul (.num 2 1) (.var 2))) (.mul (.num 12 1) (.pow (.var 2) 2))) (.mul (.num 8 1) (.pow (.var 2) 3)))))) (.mul (.num 6 1) (.sqrt (.add (.add (.neg (.num 1 1)) (.mul (.var 2) (.add (.neg (.num 3 1)) (.mul (.num 2 1) (.var 2))))) (.div (.num 2 1) (.add (.neg (.num 1 1)) (.mul (.num 2 1) (.var 2)))))))) (.mul (.var 2) (.add (.mul (.neg (.num 3 1)) (.add (.sqrt (.div (.add (.num 1 1) (.mul (.num 2 1) (.var 2))) (.add (.sub (.add (.neg (.num 3 1)) (.mul (.num 11 1) (.var 2))) (.mul (.num 12 1) (.pow (.var 2) 2))) (.mul (.num 4 1) (.pow (.var 2) 3))))) (.mul (.num 2 1) (.sqrt (.div (.add (.neg (.num 1 1)) (.var 2)) (.add (.sub (.sub (.num 3 1) (.mul (.num 2 1) (.var 2))) (.mul (.num 12 1) (.pow (.var 2) 2))) (.mul (.num 8 1) (.pow (.var 2) 3)))))))) (.mul (.var 2) (.add (.sub (.mul (.num 11 1) (.sqrt (.div (.add (.num 1 1) (.mul (.num 2 1) (.var 2))) (.add (.sub (.add (.neg (.num 3 1)) (.mul (.num 11 1) (.var 2))) (.mul (.num 12 1) (.pow (.var 2) 2))) (.mul (.num 4 1) (.pow (.var 2) 3)))))) (.mul (.num 36 1) (.sqrt (.div (.add (.neg (.num 1 1)) (.var 2)) (.add (.sub (.sub (.num 3 1) (.mul (.num 2 1) (.var 2))) (.mul (.num 12 1) (.pow (.var 2) 2))) (.mul (.num 8 1) (.pow (.var 2) 3))))))) (.mul (.mul (.num 4 1) (.var 2)) (.add (.add (.mul (.neg (.num 3 1)) (.sqrt (.div (.add (.num 1 1) (.mul (.num 2 1) (.var 2))) (.add (.sub (.add (.neg (.num 3 1)) (.mul (.num 11 1) (.var 2))) (.mul (.num 12 1) (.pow (.var 2) 2))) (.mul (.num 4 1) (.pow (.var 2) 3)))))) (.mul (.var 2) (.sqrt (.div (.add (.num 1 1) (.mul (.num 2 1) (.var 2))) (.add (.sub (.add (.neg (.num 3 1)) (.mul (.num 11 1) (.var 2))) (.mul (.num 12 1) (.pow (.var 2) 2))) (.mul (.num 4 1) (.pow (.var 2) 3))))))) (.mul (.num 6 1) (.sqrt (.div (.add (.neg (.num 1 1)) (.var 2)) (.add (.sub (.sub (.num 3 1) (.mul (.num 2 1) (.var 2))) (.mul (.num 12 1) (.pow (.var 2) 2))) (.mul (.num 8 1) (.pow (.var 2) 3)))))))))))))) (.mul (.mul (.mul (.add (.num 1 1) (.mul (.num 2 1) (.var 1))) (.var 2)) (.add (.num 1 1) (.mul (.num 2 1) (.var 2)))) (.sqrt (.div (.mul (.mul (.add (.num 1 1) (.var 1)) (.add (.num 1 1) (.var 2))) (.add (.num 3 1) (.mul (.num 2 1) (.var 2)))) (.var 1)))),
  .div (.mul (.mul (.mul (.neg (.num 2 1)) (.sqrt (.num 3 1))) (.add (.num 1 1) (.var 1))) (.add (.mul (.num 3 1) (.add (.sqrt (.div (.var 1) (.mul (.mul (.add (.num 1 1) (.var 1)) (.pow (.add (.num 1 1) (.var 2)) 3)) (.add (.add (.sub (.neg (.num 3 1)) (.mul (.num 5 1) (.var 2))) (.mul (.num 4 1) (.pow (.var 2) 2))) (.mul (.num 4 1) (.pow (.var 2) 3)))))) (.mul (.num 2 1) (.sqrt (.div (.mul (.var 1) (.add (.neg (.num 1 1)) (.var 2))) (.mul (.add (.num 1 1) (.var 1)) (.add (.add (.add (.num 3 1) (.mul (.num 11 1) (.var 2))) (.mul (.num 12 1) (.pow (.var 2) 2))) (.mul (.num 4 1) (.pow (.var 2) 3))))))))) (.mul (.mul (.var 2) (.sqrt (.div (.var 1) (.mul (.mul (.add (.num 1 1) (.var 1)) (.pow (.add (.num 1 1) (.var 2)) 3)) (.add (.add (.sub (.neg (.num 3 1)) (.mul (.num 5 1) (.var 2))) (.mul (.num 4 1) (.pow (.var 2) 2))) (.mul (.num 4 1) (.pow (.var 2) 3))))))) (.add (.neg (.num 5 1)) (.mul (.var 2) (.add (.neg (.num 5 1)) (.mul (.var 2) (.add (.num 5 1) (.mul (.num 2 1) (.var 2)))))))))) (.mul (.mul (.add (.num 1 1) (.mul (.num 2 1) (.var 1))) (.var 2)) (.add (.num 1 1) (.var 2))),
  .div (.mul (.mul (.mul (.neg (.num 2 1)) (.sqrt (.add (.num 6 1) (.div (.num 6 1) (.var 1))))) (.var 1)) (.add (.add (.mul (.num 3 1) (.sqrt (.mul (.mul (.mul (.var 2) (.add (.num 1 1) (.var 2))) (.add (.num 1 1) (.mul (.num 2 1) (.var 2)))) (.add (.num 3 1) (.mul (.num 2 1) (.var 2)))))) (.mul (.num 5 1) (.sqrt (.mul (.mul (.mul (.pow (.var 2) 3) (.add (.num 1 1) (.var 2))) (.add (.num 1 1) (.mul (.num 2 1) (.var 2)))) (.add (.num 3 1) (.mul (.num 2 1) (.var 2))))))) (.mul (.num 2 1) (.sqrt (.mul (.mul (.mul (.pow (.var 2) 5) (.add (.num 1 1) (.var 2))) (.add (.num 1 1) (.mul (.num 2 1) (.var 2)))) (.add (.num 3 1) (.mul (.num 2 1) (.var 2)))))))) (.mul (.mul (.mul (.mul (.add (.num 1 1) (.mul (.num 2 1) (.var 1))) (.var 2)) (.pow (.add (.num 1 1) (.var 2)) 2)) (.add (.num 1 1) (.mul (.num 2 1) (.var 2)))) (.pow (.add (.num 3 1) (.mul (.num 2 1) (.var 2))) 2)),
  .div (.mul (.neg (.num 2 1)) (.sqrt (.mul (.mul (.mul (.mul (.mul (.mul (.mul (.var 1) (.add (.num 1 1) (.var 1))) (.add (.neg (.num 1 1)) (.var 2))) (.var 2)) (.add (.num 1 1) (.var 2))) (.add (.num 2 1) (.var 2))) (.add (.neg (.num 1 1)) (.mul (.num 2 1) (.var 2)))) (.add (.num 3 1) (.mul (.num 2 1) (.var 2)))))) (.mul (.mul (.mul (.add (.num 1 1) (.mul (.num 2 1) (.var 1))) (.var 2)) (.add (.num 1 1) (.var 2))) (.add (.num 1 1) (.mul (.num 2 1) (.var 2)))),
  .div (.mul (.mul (.neg (.num 2 1)) (.sqrt (.num 2 1))) (.sqrt (.div (.mul (.mul (.mul (.var 1) (.add (.num 1 1) (.var 1))) (.var 2)) (.add (.add (.neg (.num 1 1)) (.var 2)) (.mul (.num 2 1) (.pow (.var 2) 2)))) (.add (.num 1 1) (.mul (.num 2 1) (.var 2)))))) (.add (.add (.add (.var 2) (.mul (.mul (.num 2 1) (.var 1)) (.var 2))) (.pow (.var 2) 2)) (.mul (.mul (.num 2 1) (.var 1)) (.pow (.var 2) 2))),
  .div (.mul (.mul (.neg (.num 2 1)) (.sqrt (.div (.add (.var 1) (.mul (.mul (.num 2 1) (.var 1)) (.var 2))) (.add (.add (.add (.num 6 1) (.mul (.num 13 1) (.var 2))) (.mul (.num 9 1) (.pow (.var 2) 2))) (.mul (.num 2 1) (.pow (.var 2) 3)))))) (.add (.add (.mul (.num 8 1) (.sqrt (.div (.mul (.mul (.mul (.add (.num 1 1) (.var 1)) (.add (.num 1 1) (.var 2))) (.add (.neg (.num 1 1)) (.mul (.num 2 1) (.var 2)))) (.add (.num 5 1) (.mul (.num 2 1) (.var 2)))) (.add (.num 2 1) (.var 2))))) (.sqrt (.mul (.mul (.mul (.mul (.add (.num 1 1) (.var 1)) (.add (.num 1 1) (.var 2))) (.add (.num 2 1) (.var 2))) (.add (.neg (.num 1 1)) (.mul (.num 2 1) (.var 2)))) (.add (.num 5 1) (.mul (.num 2 1) (.var 2)))))) (.mul (.mul (.num 2 1) (.var 2)) (.add (.mul (.num 2 1) (.sqrt (.div (.mul (.mul (.mul (.add (.num 1 1) (.var 1)) (.add (.num 1 1) (.var 2))) (.add (.neg (.num 1 1)) (.mul (.num 2 1) (.var 2)))) (.add (.num 5 1) (.mul (.num 2 1) (.var 2)))) (.add (.num 2 1) (.var 2))))) (.sqrt (.mul (.mul (.mul (.mul (.add (.num 1 1) (.var 1)) (.add (.num 1 1) (.var 2))) (.add (.num 2 1) (.var 2))) (.add (.neg (.num 1 1)) (.mul (.num 2 1) (.var 2)))) (.add (.num 5 1) (.mul (.num 2 1) (.var 2))))))))) (.mul (.mul (.add (.num 1 1) (.mul (.num 2 1) (.var 1))) (.add (.num 1 1) (.mul (.num 2 1) (.var 2)))) (.add (.num 5 1) (.mul (.num 2 1) (.var 2)))),
  .neg (.div (.sqrt (.num 3 1)) (.sqrt (.add (.neg (.num 1 1)) (.mul (.num 4 1) (.pow (.var 1) 2))))),
  .div (.mul (.neg (.num 2 1)) (.add (.neg (.num 1 1)) (.pow (.var 1) 2))) (.sqrt (.add (.sub (.num 1 1) (.mul (.num 5 1) (.pow (.var 1) 2))) (.mul (.num 4 1) (.pow (.var 1) 4)))),
  .div (.neg (.num 2 1)) (.add (.num 1 1) (.mul (.num 2 1) (.var 1))),
  .div (.sub (.sub (.add (.sub (.sqrt (.div (.mul (.mul (.mul (.pow (.var 1) 3) (.add (.num 1 1) (.var 1))) (.add (.num 1 1) (.mul (.num 2 1) (.var 1)))) (.add (.num 3 1) (.mul (.num 2 1) (.var 1)))) (.add (.neg (.num 1 1)) (.mul (.num 2 1) (.var 1))))) (.mul (.num 2 1) (.sqrt (.div (.mul (.mul (.mul (.pow (.var 1) 5) (.add (.num 1 1) (.var 1))) (.add (.num 1 1) (.mul (.num 2 1) (.var 1)))) (.add (.num 3 1) (.mul (.num 2 1) (.var 1)))) (.add (.neg (.num 1 1)) (.mul (.num 2 1) (.var 1))))))) (.mul (.mul (.num 4 1) (.var 1)) (.sqrt (.div (.mul (.mul (.var 1) (.add (.num 1 1) (.var 1))) (.add (.num 3 1) (.mul (.num 2 1) (.var 1)))) (.add (.neg (.num 1 1)) (.mul (.num 4 1) (.pow (.var 1) 2))))))) (.mul (.num 8 1) (.sqrt (.div (.mul (.mul (.pow (.var 1) 5) (.add (.num 1 1) (.var 1))) (.add (.num 3 1) (.mul (.num 2 1) (.var 1)))) (.add (.neg (.num 1 1)) (.mul (.num 4 1) (.pow (.var 1) 2))))))) (.mul (.num 3 1) (.sqrt (.div (.mul (.var 1) (.add (.neg (.num 3 1)) (.mul (.var 1) (.add (.num 1 1) (.mul (.mul (.num 4 1) (.var 1)) (.add (.num 2 1) (.var 1))))))) (.add (.num 1 1) (.mul (.num 2 1) (.var 1))))))) (.sqrt (.mul (.mul (.mul (.var 1) (.pow (.add (.num 1 1) (.var 1)) 3)) (.add (.num 1 1) (.mul (.num 2 1) (.var 1)))) (.pow (.add (.num 3 1) (.mul (.num 2 1) (.var 1))) 2))),
  .neg (.div (.mul (.sqrt (.num 3 1)) (.add (.add (.mul (.num 3 1) (.sqrt (.mul (.mul (.var 1) (.add (.num 1 1) (.var 1))) (.add (.num 3 1) (.mul (.num 2 1) (.var 1)))))) (.mul (.num 5 1) (.sqrt (.mul (.mul (.pow (.var 1) 3) (.add (.num 1 1) (.var 1))) (.add (.num 3 1) (.mul (.num 2 1) (.var 1))))))) (.mul (.num 2 1) (.sqrt (.mul (.mul (.pow (.var 1) 5) (.add (.num 1 1) (.var 1))) (.add (.num 3 1) (.mul (.num 2 1) (.var 1)))))))) (.sqrt (.mul (.mul (.mul (.var 1) (.pow (.add (.num 1 1) (.var 1)) 3)) (.add (.num 1 1) (.mul (.num 2 1) (.var 1)))) (.pow (.add (.num 3 1) (.mul (.num 2 1) (.var 1))) 4)))),
  .mul (.mul (.neg (.num 2 1)) (.add (.num 2 1) (.var 1))) (.sqrt (.div (.var 1) (.add (.add (.add (.num 6 1) (.mul (.num 19 1) (.var 1))) (.mul (.num 16 1) (.pow (.var 1) 2))) (.mul (.num 4 1) (.pow (.var 1) 3))))),
  .div (.mul (.neg (.num 2 1)) (.sqrt (.mul (.mul (.var 1) (.add (.num 1 1) (.var 1))) (.add (.neg (.num 1 1)) (.pow (.var 2) 2))))) (.add (.var 2) (.mul (.mul (.num 2 1) (.var 1)) (.var 2))),
  .div (.mul (.num 2 1) (.sqrt (.mul (.var 1) (.add (.num 1 1) (.var 1))))) (.add (.var 2) (.mul (.mul (.num 2 1) (.var 1)) (.var 2))),
  .div (.mul (.mul (.neg (.num 2 1)) (.sqrt (.mul (.var 1) (.add (.num 1 1) (.var 1))))) (.add (.add (.neg (.num 1 1)) (.var 2)) (.pow (.var 2) 2))) (.mul (.mul (.add (.num 1 1) (.mul (.num 2 1) (.var 1))) (.var 2)) (.add (.num 1 1) (.var 2))),
  .div (.mul (.neg (.num 2 1)) (.sqrt (.mul (.var 1) (.add (.num 1 1) (.var 1))))) (.add (.add (.add (.num 1 1) (.mul (.num 2 1) (.var 1))) (.var 2)) (.mul (.mul (.num 2 1) (.var 1)) (.var 2))),
  .div (.mul (.mul (.num 2 1) (.add (.num 1 1) (.var 1))) (.sub (.add (.mul (.num 2 1) (.sqrt (.div (.add (.var 1) (.mul (.mul (.num 2 1) (.var 1)) (.var 2))) (.add (.num 1 1) (.mul (.num 2 1) (.var 1)))))) (.sqrt (.div (.var 1) (.add (.add (.add (.num 1 1) (.mul (.num 2 1) (.var 1))) (.mul (.num 2 1) (.var 2))) (.mul (.mul (.num 4 1) (.var 1)) (.var 2)))))) (.mul (.mul (.num 2 1) (.var 2)) (.sqrt (.div (.var 1) (.add (.add (.add (.num 1 1) (.mul (.num 2 1) (.var 1))) (.mul (.num 2 1) (.var 2))) (.mul (.mul (.num 4 1) (.var 1)) (.var 2)))))))) (.mul (.add (.num 1 1) (.var 2)) (.sqrt (.mul (.mul (.add (.num 1 1) (.var 1)) (.add (.num 1 1) (.mul (.num 2 1) (.var 1)))) (.add (.num 3 1) (.mul (.num 2 1) (.var 2)))))),
  .div (.mul (.mul (.neg (.num 2 1)) (.sqrt (.div (.add (.num 1 1) (.var 1)) (.mul (.add (.num 1 1) (.mul (.num 2 1) (.var 1))) (.add (.add (.num 6 1) (.mul (.num 7 1) (.var 2))) (.mul (.num 2 1) (.pow (.var 2) 2))))))) (.add (.add (.mul (.num 6 1) (.sqrt (.div (.mul (.var 1) (.var 2)) (.add (.add (.add (.num 3 1) (.mul (.num 6 1) (.var 1))) (.mul (.num 2 1) (.var 2))) (.mul (.mul (.num 4 1) (.var 1)) (.var 2)))))) (.mul (.num 7 1) (.sqrt (.div (.mul (.var 1) (.pow (.var 2) 3)) (.add (.add (.add (.num 3 1) (.mul (.num 6 1) (.var 1))) (.mul (.num 2 1) (.var 2))) (.mul (.mul (.num 4 1) (.var 1)) (.var 2))))))) (.mul (.num 2 1) (.sqrt (.div (.mul (.var 1) (.pow (.var 2) 5)) (.add (.add (.add (.num 3 1) (.mul (.num 6 1) (.var 1))) (.mul (.num 2 1) (.var 2))) (.mul (.mul (.num 4 1) (.var 1)) (.var 2)))))))) (.add (.num 1 1) (.var 2)),
  .neg (.sqrt (.sub (.num 1 1) (.ipow (.var 2) 2))),
  .div (.add (.add (.neg (.num 1 1)) (.var 2)) (.pow (.var 2) 2)) (.mul (.add (.num 1 1) (.mul (.num 2 1) (.var 1))) (.add (.var 2) (.pow (.var 2) 2))),
  .div (.num 1 1) (.add (.add (.add (.num 1 1) (.mul (.num 2 1) (.var 1))) (.var 2)) (.mul (.mul (.num 2 1) (.var 1)) (.var 2))),
  .sub (.add (.neg (.num 1 1)) (.div (.num 1 1) (.var 2))) (.div (.num 1 1) (.add (.num 1 1) (.var 2))),
  .neg (.div (.mul (.add (.num 1 1) (.mul (.num 2 1) (.var 1))) (.add (.add (.mul (.num 27 1) (.add (.sqrt (.mul (.mul (.mul (.mul (.pow (.add (.num 1 1) (.var 1)) 3) (.add (.num 3 1) (.mul (.num 2 1) (.var 1)))) (.var 2)) (.pow (.add (.num 1 1) (.var 2)) 4)) (.add (.num 3 1) (.mul (.num 2 1) (.var 2))))) (.mul (.num 2 1) (.sqrt (.div (.mul (.mul (.mul (.mul (.pow (.add (.num 1 1) (.var 1)) 3) (.add (.num 3 1) (.mul (.num 2 1) (.var 1)))) (.var 2)) (.pow (.add (.num 1 1) (.var 2)) 4)) (.add (.num 3 1) (.mul (.num 2 1) (.var 2)))) (.pow (.add (.num 1 1) (.mul (.num 2 1) (.var 1))) 2)))))) (.mul (.mul (.mul (.mul (.num 2 1) (.var 1)) (.add (.num 1 1) (.var 2))) (.add (.num 3 1) (.mul (.num 2 1) (.var 2)))) (.add (.add (.mul (.num 3 1) (.sqrt (.mul (.mul (.mul (.mul (.pow (.add (.num 1 1) (.var 1)) 3) (.add (.num 3 1) (.mul (.num 2 1) (.var 1)))) (.var 2)) (.pow (.add (.num 1 1) (.var 2)) 4)) (.add (.num 3 1) (.mul (.num 2 1) (.var 2)))))) (.mul (.num 6 1) (.sqrt (.div (.mul (.mul (.mul (.mul (.pow (.add (.num 1 1) (.var 1)) 3) (.add (.num 3 1) (.mul (.num 2 1) (.var 1)))) (.var 2)) (.pow (.add (.num 1 1) (.var 2)) 4)) (.add (.num 3 1) (.mul (.num 2 1) (.var 2)))) (.pow (.add (.num 1 1) (.mul (.num 2 1) (.var 1))) 2))))) (.mul (.mul (.num 4 1) (.var 2)) (.sqrt (.div (.mul (.mul (.mul (.mul (.pow (.add (.num 1 1) (.var 1)) 3) (.add (.num 3 1) (.mul (.num 2 1) (.var 1)))) (.var 2)) (.pow (.add (.num 1 1) (.var 2)) 4)) (.add (.num 3 1) (.mul (.num 2 1) (.var 2)))) (.pow (.add (.num 1 1) (.mul (.num 2 1) (.var 1))) 2))))))) (.mul (.var 2) (.add (.add (.add (.mul (.num 45 1) (.sqrt (.mul (.mul (.mul (.mul (.pow (.add (.num 1 1) (.var 1)) 3) (.add (.num 3 1) (.mul (.num 2 1) (.var 1)))) (.var 2)) (.pow (.add (.num 1 1) (.var 2)) 4)) (.add (.num 3 1) (.mul (.num 2 1) (.var 2)))))) (.mul (.num 126 1) (.sqrt (.div (.mul (.mul (.mul (.mul (.pow (.add (.num 1 1) (.var 1)) 3) (.add (.num 3 1) (.mul (.num 2 1) (.var 1)))) (.var 2)) (.pow (.add (.num 1 1) (.var 2)) 4)) (.add (.num 3 1) (.mul (.num 2 1) (.var 2)))) (.pow (.add (.num 1 1) (.mul (.num 2 1) (.var 1))) 2))))) (.mul (.num 2 1) (.sqrt (.mul (.mul (.mul (.mul (.pow (.add (.num 1 1) (.var 1)) 3) (.pow (.add (.num 3 1) (.mul (.num 2 1) (.var 1))) 3)) (.var 2)) (.pow (.add (.num 1 1) (.var 2)) 6)) (.pow (.add (.num 3 1) (.mul (.num 2 1) (.var 2))) 3))))) (.mul (.mul (.num 6 1) (.var 2)) (.add (.add (.mul (.num 3 1) (.sqrt (.mul (.mul (.mul (.mul (.pow (.add (.num 1 1) (.var 1)) 3) (.add (.num 3 1) (.mul (.num 2 1) (.var 1)))) (.var 2)) (.pow (.add (.num 1 1) (.var 2)) 4)) (.add (.num 3 1) (.mul (.num 2 1) (.var 2)))))) (.mul (.num 16 1) (.sqrt (.div (.mul (.mul (.mul (.mul (.pow (.add (.num 1 1) (.var 1)) 3) (.add (.num 3 1) (.mul (.num 2 1) (.var 1)))) (.var 2)) (.pow (.add (.num 1 1) (.var 2)) 4)) (.add (.num 3 1) (.mul (.num 2 1) (.var 2)))) (.pow (.add (.num 1 1) (.mul (.num 2 1) (.var 1))) 2))))) (.mul (.mul (.num 4 1) (.var 2)) (.sqrt (.div (.mul (.mul (.mul (.mul (.pow (.add (.num 1 1) (.var 1)) 3) (.add (.num 3 1) (.mul (.num 2 1) (.var 1)))) (.var 2)) (.pow (.add (.num 1 1) (.var 2)) 4)) (.add (.num 3 1) (.mul (.num 2 1) (.var 2)))) (.pow (.add (.num 1 1) (.mul (.num 2 1) (.var 1))) 2)))))))))) (.mul (.mul (.mul (.hpow (.add (.num 1 1) (.var 1)) 1) (.sqrt (.var 2))) (.pow (.add (.num 1 1) (.var 2)) 4)) (.hpow (.mul (.add (.num 3 1) (.mul (.num 2 1) (.var 1))) (.add (.num 3 1) (.mul (.num 2 1) (.var 2)))) 2))),
  .div (.mul (.mul (.sqrt (.sub (.num 2 1) (.div (.num 1 1) (.add (.num 1 1) (.var 1))))) (.add (.num 1 1) (.mul (.num 2 1) (.var 2)))) (.add (.sub (.add (.neg (.sqrt (.div (.mul (.add (.num 1 1) (.var 1)) (.add (.num 3 1) (.mul (.num 2 1) (.var 2)))) (.mul (.add (.num 1 1) (.mul (.num 2 1) (.var 1))) (.pow (.add (.num 1 1) (.mul (.num 2 1) (.var 2))) 3))))) (.mul (.mul (.num 2 1) (.var 2)) (.sqrt (.div (.mul (.add (.num 1 1) (.var 1)) (.add (.num 3 1) (.mul (.num 2 1) (.var 2)))) (.mul (.add (.num 1 1) (.mul (.num 2 1) (.var 1))) (.pow (.add (.num 1 1) (.mul (.num 2 1) (.var 2))) 3)))))) (.mul (.num 2 1) (.sqrt (.div (.mul (.add (.num 1 1) (.var 1)) (.add (.num 3 1) (.mul (.num 2 1) (.var 2)))) (.mul (.add (.num 1 1) (.mul (.num 2 1) (.var 1))) (.add (.num 1 1) (.mul (.num 2 1) (.var 2)))))))) (.mul (.mul (.num 2 1) (.var 1)) (.add (.sub (.sqrt (.div (.mul (.add (.num 1 1) (.var 1)) (.add (.num 3 1) (.mul (.num 2 1) (.var 2)))) (.mul (.pow (.add (.num 1 1) (.mul (.num 2 1) (.var 1))) 3) (.pow (.add (.num 1 1) (.mul (.num 2 1) (.var 2))) 3)))) (.mul (.mul (.num 2 1) (.var 2)) (.sqrt (.div (.mul (.add (.num 1 1) (.var 1)) (.add (.num 3 1) (.mul (.num 2 1) (.var 2)))) (.mul (.pow (.add (.num 1 1) (.mul (.num 2 1) (.var 1))) 3) (.pow (.add (.num 1 1) (.mul (.num 2 1) (.var 2))) 3)))))) (.mul (.num 2 1) (.sqrt (.div (.mul (.add (.num 1 1) (.var 1)) (.add (.num 3 1) (.mul (.num 2 1) (.var 2)))) (.mul (.pow (.add (.num 1 1) (.mul (.num 2 1) (.var 1))) 3) (.add (.num 1 1) (.mul (.num 2 1) (.var 2))))))))))) (.mul (.add (.num 1 1) (.var 2)) (.add (.num 3 1) (.mul (.num 2 1) (.var 2)))),
  .div (.mul (.var 2) (.add (.add (.add (.add (.mul (.num 18 1) (.sqrt (.div (.mul (.add (.num 1 1) (.var 1)) (.add (.num 3 1) (.mul (.num 2 1) (.var 2)))) (.var 2)))) (.mul (.num 51 1) (.sqrt (.mul (.mul (.add (.num 1 1) (.var 1)) (.var 2)) (.add (.num 3 1) (.mul (.num 2 1) (.var 2))))))) (.mul (.num 53 1) (.sqrt (.mul (.mul (.add (.num 1 1) (.var 1)) (.pow (.var 2) 3)) (.add (.num 3 1) (.mul (.num 2 1) (.var 2))))))) (.mul (.num 24 1) (.sqrt (.mul (.mul (.add (.num 1 1) (.var 1)) (.pow (.var 2) 5)) (.add (.num 3 1) (.mul (.num 2 1) (.var 2))))))) (.mul (.num 4 1) (.sqrt (.mul (.mul (.add (.num 1 1) (.var 1)) (.pow (.var 2) 7)) (.add (.num 3 1) (.mul (.num 2 1) (.var 2)))))))) (.mul (.mul (.mul (.add (.num 1 1) (.mul (.num 2 1) (.var 1))) (.pow (.add (.num 1 1) (.var 2)) 2)) (.sqrt (.mul (.add (.num 1 1) (.var 1)) (.add (.num 2 1) (.var 2))))) (.hpow (.add (.num 3 1) (.mul (.num 2 1) (.var 2))) 2)),
  .div (.add (.add (.add (.add (.add (.add (.mul (.num 81 1) (.sqrt (.mul (.mul (.add (.num 3 1) (.mul (.num 2 1) (.var 1))) (.var 2)) (.add (.num 1 1) (.mul (.num 2 1) (.var 2)))))) (.mul (.num 165 1) (.sqrt (.mul (.mul (.add (.num 3 1) (.mul (.num 2 1) (.var 1))) (.pow (.var 2) 3)) (.add (.num 1 1) (.mul (.num 2 1) (.var 2))))))) (.mul (.num 188 1) (.sqrt (.mul (.mul (.add (.num 3 1) (.mul (.num 2 1) (.var 1))) (.pow (.var 2) 5)) (.add (.num 1 1) (.mul (.num 2 1) (.var 2))))))) (.mul (.num 84 1) (.sqrt (.mul (.mul (.add (.num 3 1) (.mul (.num 2 1) (.var 1))) (.pow (.var 2) 7)) (.add (.num 1 1) (.mul (.num 2 1) (.var 2))))))) (.mul (.num 16 1) (.sqrt (.mul (.mul (.add (.num 3 1) (.mul (.num 2 1) (.var 1))) (.pow (.var 2) 9)) (.add (.num 1 1) (.mul (.num 2 1) (.var 2))))))) (.mul (.mul (.num 2 1) (.var 1)) (.add (.add (.add (.add (.mul (.num 27 1) (.sqrt (.mul (.mul (.add (.num 3 1) (.mul (.num 2 1) (.var 1))) (.var 2)) (.add (.num 1 1) (.mul (.num 2 1) (.var 2)))))) (.mul (.num 81 1) (.sqrt (.mul (.mul (.add (.num 3 1) (.mul (.num 2 1) (.var 1))) (.pow (.var 2) 3)) (.add (.num 1 1) (.mul (.num 2 1) (.var 2))))))) (.mul (.num 90 1) (.sqrt (.mul (.mul (.add (.num 3 1) (.mul (.num 2 1) (.var 1))) (.pow (.var 2) 5)) (.add (.num 1 1) (.mul (.num 2 1) (.var 2))))))) (.mul (.num 44 1) (.sqrt (.mul (.mul (.add (.num 3 1) (.mul (.num 2 1) (.var 1))) (.pow (.var 2) 7)) (.add (.num 1 1) (.mul (.num 2 1) (.var 2))))))) (.mul (.num 8 1) (.sqrt (.mul (.mul (.add (.num 3 1) (.mul (.num 2 1) (.var 1))) (.pow (.var 2) 9)) (.add (.num 1 1) (.mul (.num 2 1) (.var 2))))))))) (.mul (.mul (.mul (.num 2 1) (.var 2)) (.sqrt (.mul (.mul (.add (.num 3 1) (.mul (.num 2 1) (.var 1))) (.var 2)) (.add (.num 1 1) (.mul (.num 2 1) (.var 2)))))) (.add (.num 39 1) (.mul (.var 2) (.add (.num 41 1) (.mul (.mul (.num 4 1) (.var 2)) (.add (.num 6 1) (.var 2)))))))) (.mul (.mul (.mul (.mul (.hpow (.add (.num 3 1) (.mul (.num 2 1) (.var 1))) 1) (.sqrt (.var 2))) (.pow (.add (.num 1 1) (.var 2)) 2)) (.add (.num 1 1) (.mul (.num 2 1) (.var 2)))) (.hpow (.add (.num 3 1) (.mul (.num 2 1) (.var 2))) 2)),
  .neg (.div (.sqrt (.mul (.var 2) (.add (.num 2 1) (.var 2)))) (.add (.num 1 1) (.var 2))),
  .sqrt (.add (.sub (.num 1 1) (.div (.num 2 1) (.add (.neg (.num 1 1)) (.var 2)))) (.div (.num 2 1) (.var 2))),
  .sqrt (.div (.add (.neg (.num 6 1)) (.mul (.num 4 1) (.var 2))) (.add (.sub (.var 2) (.mul (.num 3 1) (.pow (.var 2) 2))) (.mul (.num 2 1) (.pow (.var 2) 3)))),
  .div (.add (.neg (.num 3 1)) (.pow (.var 2) 2)) (.sqrt (.mul (.pow (.var 2) 2) (.add (.neg (.num 1 1)) (.pow (.var 2) 2)))),
  .neg (.div (.mul (.sqrt (.num 3 1)) (.add (.add (.neg (.num 3 1)) (.var 2)) (.mul (.num 2 1) (.pow (.var 2) 2)))) (.mul (.var 2) (.sqrt (.mul (.add (.num 1 1) (.var 2)) (.add (.sub (.num 3 1) (.mul (.num 7 1) (.var 2))) (.mul (.num 4 1) (.pow (.var 2) 3))))))),
  .add (.sub (.num 1 1) (.div (.num 3 1) (.var 2))) (.div (.num 3 1) (.add (.num 1 1) (.var 2))),
  .div (.num 1 1) (.mul (.add (.num 1 1) (.var 2)) (.sqrt (.div (.mul (.var 2) (.add (.num 3 1) (.mul (.num 2 1) (.var 2)))) (.add (.add (.neg (.num 6 1)) (.mul (.num 9 1) (.var 2))) (.mul (.num 6 1) (.pow (.var 2) 2)))))),
  .mul (.mul (.sqrt (.num 3 1)) (.sqrt (.add (.num 1 1) (.var 2)))) (.add (.add (.add (.mul (.mul (.mul (.add (.neg (.num 3 1)) (.var 2)) (.var 2)) (.add (.neg (.num 1 1)) (.mul (.num 2 1) (.var 2)))) (.sqrt (.div (.add (.num 1 1) (.mul (.num 2 1) (.var 2))) (.mul (.mul (.mul (.var 2) (.pow (.add (.num 1 1) (.var 2)) 3)) (.pow (.add (.num 3 1) (.mul (.num 2 1) (.var 2))) 2)) (.add (.add (.neg (.num 2 1)) (.mul (.num 3 1) (.var 2))) (.mul (.num 2 1) (.pow (.var 2) 2))))))) (.mul (.num 6 1) (.sqrt (.div (.mul (.pow (.add (.neg (.num 1 1)) (.var 2)) 2) (.add (.neg (.num 1 1)) (.mul (.num 2 1) (.var 2)))) (.mul (.mul (.mul (.var 2) (.pow (.add (.num 1 1) (.var 2)) 3)) (.pow (.add (.num 3 1) (.mul (.num 2 1) (.var 2))) 2)) (.add (.add (.num 2 1) (.mul (.num 5 1) (.var 2))) (.mul (.num 2 1) (.pow (.var 2) 2)))))))) (.mul (.sub (.num 1 1) (.mul (.num 2 1) (.var 2))) (.sqrt (.div (.mul (.var 2) (.add (.num 1 1) (.mul (.num 2 1) (.var 2)))) (.mul (.pow (.add (.num 3 1) (.mul (.num 2 1) (.var 2))) 2) (.add (.add (.add (.neg (.num 2 1)) (.var 2)) (.mul (.num 5 1) (.pow (.var 2) 2))) (.mul (.num 2 1) (.pow (.var 2) 3)))))))) (.div (.mul (.mul (.num 3 1) (.add (.neg (.num 3 1)) (.mul (.num 2 1) (.var 2)))) (.sqrt (.div (.mul (.var 2) (.add (.neg (.num 1 1)) (.mul (.num 2 1) (.var 2)))) (.add (.add (.add (.num 2 1) (.mul (.num 7 1) (.var 2))) (.mul (.num 7 1) (.pow (.var 2) 2))) (.mul (.num 2 1) (.pow (.var 2) 3)))))) (.add (.add (.num 3 1) (.mul (.num 5 1) (.var 2))) (.mul (.num 2 1) (.pow (.var 2) 2))))),
  .div (.add (.neg (.num 2 1)) (.mul (.var 2) (.add (.num 2 1) (.var 2)))) (.mul (.add (.num 1 1) (.var 2)) (.sqrt (.mul (.var 2) (.add (.num 2 1) (.var 2))))),
  .div (.mul (.sqrt (.add (.num 2 1) (.div (.num 2 1) (.var 2)))) (.add (.mul (.mul (.num 45 1) (.var 2)) (.sqrt (.mul (.mul (.mul (.var 2) (.add (.num 1 1) (.var 2))) (.add (.num 2 1) (.var 2))) (.add (.num 3 1) (.mul (.num 2 1) (.var 2)))))) (.mul (.num 2 1) (.add (.add (.mul (.num 15 1) (.sqrt (.mul (.mul (.mul (.var 2) (.add (.num 1 1) (.var 2))) (.add (.num 2 1) (.var 2))) (.add (.num 3 1) (.mul (.num 2 1) (.var 2)))))) (.mul (.num 9 1) (.sqrt (.mul (.mul (.mul (.pow (.var 2) 5) (.add (.num 1 1) (.var 2))) (.add (.num 2 1) (.var 2))) (.add (.num 3 1) (.mul (.num 2 1) (.var 2))))))) (.sqrt (.mul (.mul (.mul (.mul (.pow (.var 2) 3) (.pow (.add (.num 1 1) (.var 2)) 3)) (.add (.num 2 1) (.var 2))) (.pow (.add (.num 1 1) (.mul (.num 2 1) (.var 2))) 2)) (.add (.num 3 1) (.mul (.num 2 1) (.var 2))))))))) (.mul (.mul (.pow (.add (.num 2 1) (.var 2)) 2) (.hpow (.mul (.add (.num 1 1) (.var 2)) (.add (.num 3 1) (.mul (.num 2 1) (.var 2)))) 1)) (.add (.num 5 1) (.mul (.num 2 1) (.var 2)))),
  .neg (.div (.mul (.sqrt (.num 2 1)) (.add (.add (.add (.mul (.num 30 1) (.sqrt (.mul (.mul (.mul (.var 2) (.add (.num 1 1) (.var 2))) (.add (.num 2 1) (.var 2))) (.add (.num 3 1) (.mul (.num 2 1) (.var 2)))))) (.mul (.num 47 1) (.sqrt (.mul (.mul (.mul (.pow (.var 2) 3) (.add (.num 1 1) (.var 2))) (.add (.num 2 1) (.var 2))) (.add (.num 3 1) (.mul (.num 2 1) (.var 2))))))) (.mul (.num 24 1) (.sqrt (.mul (.mul (.mul (.pow (.var 2) 5) (.add (.num 1 1) (.var 2))) (.add (.num 2 1) (.var 2))) (.add (.num 3 1) (.mul (.num 2 1) (.var 2))))))) (.mul (.num 4 1) (.sqrt (.mul (.mul (.mul (.pow (.var 2) 7) (.add (.num 1 1) (.var 2))) (.add (.num 2 1) (.var 2))) (.add (.num 3 1) (.mul (.num 2 1) (.var 2)))))))) (.mul (.mul (.mul (.add (.num 1 1) (.var 2)) (.pow (.add (.num 2 1) (.var 2)) 2)) (.pow (.add (.num 3 1) (.mul (.num 2 1) (.var 2))) 2)) (.sqrt (.mul (.var 2) (.add (.num 5 1) (.mul (.num 2 1) (.var 2))))))),
  .div (.mul (.add (.num 3 1) (.var 2)) (.sqrt (.div (.mul (.var 2) (.add (.num 1 1) (.var 2))) (.add (.add (.num 6 1) (.mul (.num 5 1) (.var 2))) (.pow (.var 2) 2))))) (.add (.num 1 1) (.var 2)),
  .mul (.add (.neg (.num 1 1)) (.mul (.num 2 1) (.var 1))) (.sqrt (.div (.mul (.add (.num 1 1) (.var 1)) (.add (.neg (.num 1 1)) (.pow (.var 2) 2))) (.mul (.add (.neg (.var 1)) (.mul (.num 4 1) (.pow (.var 1) 3))) (.pow (.var 2) 2)))),
  .mul (.mul (.add (.neg (.num 1 1)) (.mul (.num 2 1) (.var 1))) (.add (.neg (.num 1 1)) (.mul (.num 2 1) (.var 2)))) (.sqrt (.div (.add (.num 1 1) (.var 1)) (.mul (.mul (.add (.neg (.var 1)) (.mul (.num 4 1) (.pow (.var 1) 3))) (.pow (.var 2) 2)) (.add (.neg (.num 1 1)) (.mul (.num 4 1) (.pow (.var 2) 2)))))),
  .div (.mul (.sub (.num 1 1) (.mul (.num 2 1) (.var 1))) (.sqrt (.neg (.div (.add (.num 1 1) (.var 1)) (.sub (.var 1) (.mul (.num 4 1) (.pow (.var 1) 3))))))) (.var 2),
  .mul (.mul (.add (.neg (.num 1 1)) (.mul (.num 2 1) (.var 1))) (.add (.add (.neg (.num 1 1)) (.var 2)) (.pow (.var 2) 2))) (.sqrt (.div (.add (.num 1 1) (.var 1)) (.mul (.mul (.var 1) (.add (.neg (.num 1 1)) (.mul (.num 4 1) (.pow (.var 1) 2)))) (.pow (.add (.var 2) (.pow (.var 2) 2)) 2)))),
  .div (.num 1 1) (.mul (.sqrt (.div (.mul (.var 1) (.add (.num 1 1) (.mul (.num 2 1) (.var 1)))) (.add (.add (.neg (.num 1 1)) (.var 1)) (.mul (.num 2 1) (.pow (.var 1) 2))))) (.add (.num 1 1) (.var 2))),
  .neg (.mul (.mul (.add (.neg (.num 1 1)) (.mul (.num 2 1) (.var 1))) (.add (.num 3 1) (.mul (.num 2 1) (.var 2)))) (.sqrt (.div (.add (.num 1 1) (.var 1)) (.mul (.mul (.mul (.var 1) (.add (.neg (.num 1 1)) (.mul (.num 4 1) (.pow (.var 1) 2)))) (.pow (.add (.num 1 1) (.var 2)) 2)) (.add (.num 3 1) (.mul (.mul (.num 4 1) (.var 2)) (.add (.num 2 1) (.var 2)))))))),
  .div (.sqrt (.div (.mul (.mul (.add (.add (.neg (.num 1 1)) (.var 1)) (.mul (.num 2 1) (.pow (.var 1) 2))) (.var 2)) (.add (.num 2 1) (.var 2))) (.mul (.var 1) (.add (.num 1 1) (.mul (.num 2 1) (.var 1)))))) (.add (.num 1 1) (.var 2)),
  .neg (.div (.num 1 1) (.sqrt (.div (.mul (.mul (.var 1) (.add (.num 1 1) (.mul (.num 2 1) (.var 1)))) (.pow (.var 2) 2)) (.add (.neg (.num 1 1)) (.pow (.var 2) 2))))),
  .div (.sub (.num 1 1) (.mul (.num 2 1) (.var 2))) (.mul (.var 2) (.sqrt (.mul (.mul (.var 1) (.add (.num 1 1) (.mul (.num 2 1) (.var 1)))) (.add (.neg (.num 1 1)) (.mul (.num 4 1) (.pow (.var 2) 2)))))),
  .mul (.add (.num 3 1) (.mul (.num 2 1) (.var 1))) (.sqrt (.div (.mul (.var 1) (.add (.neg (.num 1 1)) (.pow (.var 2) 2))) (.mul (.add (.add (.add (.num 3 1) (.mul (.num 11 1) (.var 1))) (.mul (.num 12 1) (.pow (.var 1) 2))) (.mul (.num 4 1) (.pow (.var 1) 3))) (.pow (.var 2) 2)))),
  .mul (.add (.num 3 1) (.mul (.num 2 1) (.var 1))) (.sqrt (.div (.mul (.var 1) (.add (.neg (.num 1 1)) (.mul (.num 2 1) (.var 2)))) (.mul (.mul (.add (.add (.add (.num 3 1) (.mul (.num 11 1) (.var 1))) (.mul (.num 12 1) (.pow (.var 1) 2))) (.mul (.num 4 1) (.pow (.var 1) 3))) (.pow (.var 2) 2)) (.add (.num 1 1) (.mul (.num 2 1) (.var 2)))))),
  .div (.add (.add (.neg (.mul (.mul (.add (.neg (.num 1 1)) (.var 2)) (.var 2)) (.sqrt (.mul (.mul (.mul (.var 1) (.add (.num 1 1) (.var 1))) (.var 2)) (.add (.num 1 1) (.var 2)))))) (.sqrt (.mul (.mul (.mul (.pow (.var 1) 3) (.add (.num 1 1) (.var 1))) (.pow (.var 2) 3)) (.add (.num 1 1) (.var 2))))) (.sqrt (.mul (.mul (.mul (.var 1) (.add (.num 1 1) (.var 1))) (.pow (.var 2) 5)) (.add (.num 1 1) (.var 2))))) (.mul (.mul (.mul (.var 1) (.hpow (.add (.num 1 1) (.var 1)) 1)) (.hpow (.var 2) 2)) (.sqrt (.mul (.add (.num 1 1) (.mul (.num 2 1) (.var 1))) (.add (.num 1 1) (.var 2))))),
  .div (.sub (.num 1 1) (.mul (.var 2) (.add (.num 1 1) (.var 2)))) (.mul (.mul (.sqrt (.mul (.var 1) (.add (.num 1 1) (.mul (.num 2 1) (.var 1))))) (.var 2)) (.add (.num 1 1) (.var 2))),
  .neg (.div (.num 1 1) (.mul (.sqrt (.mul (.var 1) (.add (.num 1 1) (.mul (.num 2 1) (.var 1))))) (.add (.num 1 1) (.var 2)))),
  .div (.sub (.add (.mul (.mul (.mul (.neg (.num 3 1)) (.var 1)) (.add (.num 1 1) (.var 1))) (.sqrt (.mul (.mul (.var 1) (.add (.num 1 1) (.var 1))) (.add (.num 1 1) (.var 2))))) (.mul (.var 2) (.add (.neg (.mul (.pow (.var 1) 2) (.sqrt (.mul (.mul (.var 1) (.add (.num 1 1) (.var 1))) (.add (.num 1 1) (.var 2)))))) (.sqrt (.mul (.mul (.pow (.var 1) 5) (.add (.num 1 1) (.var 1))) (.add (.num 1 1) (.var 2))))))) (.mul (.num 2 1) (.add (.sqrt (.mul (.mul (.pow (.var 1) 5) (.add (.num 1 1) (.var 1))) (.add (.num 1 1) (.var 2)))) (.sqrt (.mul (.mul (.pow (.var 1) 7) (.add (.num 1 1) (.var 1))) (.add (.num 1 1) (.var 2))))))) (.mul (.mul (.mul (.var 1) (.pow (.add (.num 1 1) (.var 1)) 2)) (.var 2)) (.sqrt (.mul (.add (.num 3 1) (.mul (.mul (.num 4 1) (.var 1)) (.add (.num 2 1) (.var 1)))) (.add (.num 1 1) (.var 2))))),
  .div (.mul (.add (.mul (.num 3 1) (.sqrt (.mul (.var 1) (.add (.num 1 1) (.var 1))))) (.mul (.num 2 1) (.sqrt (.mul (.pow (.var 1) 3) (.add (.num 1 1) (.var 1)))))) (.add (.add (.neg (.num 1 1)) (.var 2)) (.pow (.var 2) 2))) (.mul (.mul (.mul (.add (.num 1 1) (.var 1)) (.sqrt (.add (.num 3 1) (.mul (.mul (.num 4 1) (.var 1)) (.add (.num 2 1) (.var 1)))))) (.var 2)) (.add (.num 1 1) (.var 2))),
  .div (.add (.num 3 1) (.mul (.num 2 1) (.var 1))) (.mul (.sqrt (.div (.mul (.mul (.add (.num 1 1) (.var 1)) (.add (.num 1 1) (.mul (.num 2 1) (.var 1)))) (.add (.num 3 1) (.mul (.num 2 1) (.var 1)))) (.var 1))) (.add (.num 1 1) (.var 2))),
  .div (.add (.sub (.mul (.num 2 1) (.sqrt (.div (.mul (.mul (.add (.num 1 1) (.mul (.num 2 1) (.var 1))) (.var 2)) (.add (.num 1 1) (.mul (.num 2 1) (.var 2)))) (.var 1)))) (.mul (.num 2 1) (.sqrt (.div (.mul (.add (.num 1 1) (.mul (.num 2 1) (.var 1))) (.pow (.var 2) 3)) (.add (.var 1) (.mul (.mul (.num 2 1) (.var 1)) (.var 2))))))) (.sqrt (.div (.add (.var 2) (.mul (.mul (.num 2 1) (.var 1)) (.var 2))) (.add (.var 1) (.mul (.mul (.num 2 1) (.var 1)) (.var 2)))))) (.mul (.mul (.add (.num 1 1) (.mul (.num 2 1) (.var 1))) (.add (.num 1 1) (.var 2))) (.sqrt (.mul (.var 2) (.add (.num 3 1) (.mul (.num 2 1) (.var 2)))))),
  .neg (.div (.sqrt (.div (.mul (.var 2) (.add (.num 2 1) (.var 2))) (.mul (.var 1) (.add (.num 1 1) (.mul (.num 2 1) (.var 1)))))) (.add (.num 1 1) (.var 2))),
  .div (.sub (.sub (.add (.sub (.mul (.neg (.num 3 1)) (.sqrt (.div (.mul (.mul (.var 1) (.add (.num 3 1) (.mul (.mul (.num 4 1) (.var 1)) (.add (.num 2 1) (.var 1))))) (.var 2)) (.add (.num 1 1) (.mul (.num 2 1) (.var 2)))))) (.mul (.mul (.num 4 1) (.var 1)) (.sqrt (.div (.mul (.mul (.var 1) (.add (.num 3 1) (.mul (.mul (.num 4 1) (.var 1)) (.add (.num 2 1) (.var 1))))) (.var 2)) (.add (.num 1 1) (.mul (.num 2 1) (.var 2))))))) (.mul (.num 6 1) (.sqrt (.div (.mul (.mul (.var 1) (.add (.num 3 1) (.mul (.mul (.num 4 1) (.var 1)) (.add (.num 2 1) (.var 1))))) (.pow (.var 2) 3)) (.add (.num 1 1) (.mul (.num 2 1) (.var 2))))))) (.mul (.num 6 1) (.sqrt (.mul (.mul (.mul (.var 1) (.add (.num 3 1) (.mul (.mul (.num 4 1) (.var 1)) (.add (.num 2 1) (.var 1))))) (.var 2)) (.add (.num 1 1) (.mul (.num 2 1) (.var 2))))))) (.mul (.num 2 1) (.sqrt (.mul (.mul (.mul (.pow (.var 1) 3) (.add (.num 3 1) (.mul (.mul (.num 4 1) (.var 1)) (.add (.num 2 1) (.var 1))))) (.var 2)) (.add (.num 1 1) (.mul (.num 2 1) (.var 2))))))) (.mul (.mul (.add (.num 3 1) (.mul (.mul (.num 4 1) (.var 1)) (.add (.num 2 1) (.var 1)))) (.add (.num 1 1) (.var 2))) (.sqrt (.mul (.mul (.add (.num 1 1) (.var 1)) (.var 2)) (.add (.num 3 1) (.mul (.num 2 1) (.var 2)))))),
  .div (.add (.add (.add (.add (.add (.add (.add (.add (.add (.add (.add (.add (.mul (.num 34 1) (.sqrt (.div (.mul (.mul (.mul (.var 1) (.add (.num 1 1) (.var 1))) (.var 2)) (.add (.num 2 1) (.var 2))) (.add (.num 1 1) (.var 2))))) (.mul (.mul (.num 12 1) (.var 1)) (.sqrt (.div (.mul (.mul (.mul (.var 1) (.add (.num 1 1) (.var 1))) (.var 2)) (.add (.num 2 1) (.var 2))) (.add (.num 1 1) (.var 2)))))) (.mul (.num 83 1) (.sqrt (.div (.mul (.mul (.mul (.var 1) (.add (.num 1 1) (.var 1))) (.pow (.var 2) 3)) (.add (.num 2 1) (.var 2))) (.add (.num 1 1) (.var 2)))))) (.mul (.num 18 1) (.sqrt (.div (.mul (.mul (.mul (.pow (.var 1) 3) (.add (.num 1 1) (.var 1))) (.pow (.var 2) 3)) (.add (.num 2 1) (.var 2))) (.add (.num 1 1) (.var 2)))))) (.mul (.num 65 1) (.sqrt (.div (.mul (.mul (.mul (.var 1) (.add (.num 1 1) (.var 1))) (.pow (.var 2) 5)) (.add (.num 2 1) (.var 2))) (.add (.num 1 1) (.var 2)))))) (.mul (.num 6 1) (.sqrt (.div (.mul (.mul (.mul (.pow (.var 1) 3) (.add (.num 1 1) (.var 1))) (.pow (.var 2) 5)) (.add (.num 2 1) (.var 2))) (.add (.num 1 1) (.var 2)))))) (.mul (.num 16 1) (.sqrt (.div (.mul (.mul (.mul (.var 1) (.add (.num 1 1) (.var 1))) (.pow (.var 2) 7)) (.add (.num 2 1) (.var 2))) (.add (.num 1 1) (.var 2)))))) (.mul (.num 2 1) (.sqrt (.mul (.mul (.mul (.mul (.var 1) (.add (.num 1 1) (.var 1))) (.var 2)) (.add (.num 1 1) (.var 2))) (.add (.num 2 1) (.var 2)))))) (.mul (.num 12 1) (.sqrt (.mul (.mul (.mul (.mul (.pow (.var 1) 3) (.add (.num 1 1) (.var 1))) (.var 2)) (.add (.num 1 1) (.var 2))) (.add (.num 2 1) (.var 2)))))) (.mul (.num 34 1) (.sqrt (.mul (.mul (.mul (.mul (.pow (.var 1) 3) (.add (.num 1 1) (.var 1))) (.pow (.var 2) 3)) (.add (.num 1 1) (.var 2))) (.add (.num 2 1) (.var 2)))))) (.mul (.num 22 1) (.sqrt (.mul (.mul (.mul (.mul (.pow (.var 1) 3) (.add (.num 1 1) (.var 1))) (.pow (.var 2) 5)) (.add (.num 1 1) (.var 2))) (.add (.num 2 1) (.var 2)))))) (.mul (.num 4 1) (.sqrt (.mul (.mul (.mul (.mul (.pow (.var 1) 3) (.add (.num 1 1) (.var 1))) (.pow (.var 2) 7)) (.add (.num 1 1) (.var 2))) (.add (.num 2 1) (.var 2)))))) (.mul (.mul (.mul (.var 2) (.add (.num 1 1) (.var 2))) (.sqrt (.mul (.mul (.mul (.mul (.var 1) (.add (.num 1 1) (.var 1))) (.var 2)) (.add (.num 1 1) (.var 2))) (.add (.num 2 1) (.var 2))))) (.add (.num 11 1) (.mul (.num 6 1) (.var 2))))) (.mul (.mul (.mul (.mul (.add (.num 1 1) (.var 1)) (.sqrt (.add (.num 3 1) (.mul (.mul (.num 4 1) (.var 1)) (.add (.num 2 1) (.var 1)))))) (.hpow (.add (.num 1 1) (.var 2)) 1)) (.pow (.add (.num 2 1) (.var 2)) 2)) (.add (.num 3 1) (.mul (.num 2 1) (.var 2)))),
  .mul (.sub (.sub (.mul (.mul (.num 2 1) (.var 1)) (.add (.sqrt (.div (.mul (.add (.num 1 1) (.mul (.num 2 1) (.var 1))) (.add (.neg (.num 1 1)) (.var 2))) (.mul (.add (.add (.num 3 1) (.mul (.num 5 1) (.var 1))) (.mul (.num 2 1) (.pow (.var 1) 2))) (.var 2)))) (.mul (.num 2 1) (.sqrt (.div (.add (.neg (.num 1 1)) (.var 2)) (.mul (.add (.add (.add (.num 3 1) (.mul (.num 11 1) (.var 1))) (.mul (.num 12 1) (.pow (.var 1) 2))) (.mul (.num 4 1) (.pow (.var 1) 3))) (.var 2))))))) (.mul (.num 2 1) (.sqrt (.div (.mul (.mul (.add (.num 1 1) (.var 1)) (.add (.num 1 1) (.mul (.num 2 1) (.var 1)))) (.add (.neg (.num 1 1)) (.var 2))) (.mul (.add (.num 3 1) (.mul (.num 2 1) (.var 1))) (.var 2)))))) (.sqrt (.div (.mul (.add (.num 1 1) (.mul (.num 2 1) (.var 1))) (.add (.neg (.num 1 1)) (.var 2))) (.mul (.add (.add (.num 3 1) (.mul (.num 5 1) (.var 1))) (.mul (.num 2 1) (.pow (.var 1) 2))) (.var 2))))) (.sqrt (.div (.add (.num 1 1) (.var 2)) (.add (.mul (.num 3 1) (.var 2)) (.mul (.mul (.num 2 1) (.var 1)) (.var 2))))),
  .mul (.sqrt (.div (.add (.num 1 1) (.var 2)) (.mul (.add (.num 3 1) (.mul (.num 2 1) (.var 1))) (.add (.var 2) (.mul (.num 2 1) (.pow (.var 2) 2)))))) (.add (.sub (.mul (.neg (.num 2 1)) (.sqrt (.div (.mul (.mul (.add (.num 1 1) (.var 1)) (.add (.num 1 1) (.mul (.num 2 1) (.var 1)))) (.add (.neg (.num 1 1)) (.mul (.num 2 1) (.var 2)))) (.mul (.mul (.add (.num 3 1) (.mul (.num 2 1) (.var 1))) (.var 2)) (.add (.num 1 1) (.var 2)))))) (.sqrt (.div (.mul (.add (.num 1 1) (.mul (.num 2 1) (.var 1))) (.add (.neg (.num 1 1)) (.mul (.num 2 1) (.var 2)))) (.mul (.mul (.add (.add (.num 3 1) (.mul (.num 5 1) (.var 1))) (.mul (.num 2 1) (.pow (.var 1) 2))) (.var 2)) (.add (.num 1 1) (.var 2)))))) (.mul (.mul (.num 2 1) (.var 1)) (.add (.sqrt (.div (.mul (.add (.num 1 1) (.mul (.num 2 1) (.var 1))) (.add (.neg (.num 1 1)) (.mul (.num 2 1) (.var 2)))) (.mul (.mul (.add (.add (.num 3 1) (.mul (.num 5 1) (.var 1))) (.mul (.num 2 1) (.pow (.var 1) 2))) (.var 2)) (.add (.num 1 1) (.var 2))))) (.mul (.num 2 1) (.sqrt (.div (.add (.neg (.num 1 1)) (.mul (.num 2 1) (.var 2))) (.mul (.mul (.add (.add (.add (.num 3 1) (.mul (.num 11 1) (.var 1))) (.mul (.num 12 1) (.pow (.var 1) 2))) (.mul (.num 4 1) (.pow (.var 1) 3))) (.var 2)) (.add (.num 1 1) (.var 2))))))))),
  .div (.sub (.num 1 1) (.mul (.var 2) (.add (.num 1 1) (.var 2)))) (.mul (.mul (.sqrt (.mul (.add (.num 1 1) (.var 1)) (.add (.num 1 1) (.mul (.num 2 1) (.var 1))))) (.var 2)) (.add (.num 1 1) (.var 2))),
  .neg (.div (.num 1 1) (.mul (.sqrt (.mul (.add (.num 1 1) (.var 1)) (.add (.num 1 1) (.mul (.num 2 1) (.var 1))))) (.add (.num 1 1) (.var 2)))),
  .add (.sub (.num 1 1) (.div (.num 1 1) (.var 2))) (.div (.num 1 1) (.add (.num 1 1) (.var 2))),
  .div (.num 1 1) (.add (.num 1 1) (.var 2)),
  .div (.add (.num 3 1) (.mul (.num 2 1) (.var 2))) (.mul (.add (.num 1 1) (.var 2)) (.sqrt (.mul (.mul (.add (.num 1 1) (.var 1)) (.add (.num 1 1) (.mul (.num 2 1) (.var 1)))) (.add (.num 3 1) (.mul (.mul (.num 4 1) (.var 2)) (.add (.num 2 1) (.var 2))))))),
  .div (.add (.sub (.mul (.neg (.num 9 1)) (.add (.mul (.num 2 1) (.sqrt (.div (.mul (.mul (.mul (.add (.num 3 1) (.mul (.mul (.num 4 1) (.var 1)) (.add (.num 2 1) (.var 1)))) (.var 2)) (.add (.num 1 1) (.var 2))) (.add (.num 3 1) (.mul (.num 2 1) (.var 2)))) (.add (.num 2 1) (.var 2))))) (.sqrt (.mul (.mul (.mul (.mul (.add (.num 3 1) (.mul (.mul (.num 4 1) (.var 1)) (.add (.num 2 1) (.var 1)))) (.var 2)) (.add (.num 1 1) (.var 2))) (.add (.num 2 1) (.var 2))) (.add (.num 3 1) (.mul (.num 2 1) (.var 2))))))) (.mul (.mul (.num 3 1) (.var 2)) (.add (.add (.mul (.num 3 1) (.sqrt (.div (.mul (.mul (.mul (.add (.num 3 1) (.mul (.mul (.num 4 1) (.var 1)) (.add (.num 2 1) (.var 1)))) (.var 2)) (.add (.num 1 1) (.var 2))) (.add (.num 3 1) (.mul (.num 2 1) (.var 2)))) (.add (.num 2 1) (.var 2))))) (.mul (.num 7 1) (.sqrt (.mul (.mul (.mul (.mul (.add (.num 3 1) (.mul (.mul (.num 4 1) (.var 1)) (.add (.num 2 1) (.var 1)))) (.var 2)) (.add (.num 1 1) (.var 2))) (.add (.num 2 1) (.var 2))) (.add (.num 3 1) (.mul (.num 2 1) (.var 2))))))) (.mul (.mul (.num 2 1) (.var 2)) (.sqrt (.mul (.mul (.mul (.mul (.add (.num 3 1) (.mul (.mul (.num 4 1) (.var 1)) (.add (.num 2 1) (.var 1)))) (.var 2)) (.add (.num 1 1) (.var 2))) (.add (.num 2 1) (.var 2))) (.add (.num 3 1) (.mul (.num 2 1) (.var 2))))))))) (.mul (.mul (.num 2 1) (.var 1)) (.sub (.sub (.add (.mul (.neg (.num 6 1)) (.sqrt (.div (.mul (.mul (.mul (.add (.num 3 1) (.mul (.mul (.num 4 1) (.var 1)) (.add (.num 2 1) (.var 1)))) (.var 2)) (.add (.num 1 1) (.var 2))) (.add (.num 3 1) (.mul (.num 2 1) (.var 2)))) (.add (.num 2 1) (.var 2))))) (.mul (.num 6 1) (.sqrt (.div (.mul (.mul (.mul (.add (.num 3 1) (.mul (.mul (.num 4 1) (.var 1)) (.add (.num 2 1) (.var 1)))) (.pow (.var 2) 3)) (.add (.num 1 1) (.var 2))) (.add (.num 3 1) (.mul (.num 2 1) (.var 2)))) (.add (.num 2 1) (.var 2)))))) (.mul (.num 3 1) (.sqrt (.mul (.mul (.mul (.mul (.add (.num 3 1) (.mul (.mul (.num 4 1) (.var 1)) (.add (.num 2 1) (.var 1)))) (.var 2)) (.add (.num 1 1) (.var 2))) (.add (.num 2 1) (.var 2))) (.add (.num 3 1) (.mul (.num 2 1) (.var 2))))))) (.mul (.var 2) (.add (.add (.mul (.num 9 1) (.sqrt (.div (.mul (.mul (.mul (.add (.num 3 1) (.mul (.mul (.num 4 1) (.var 1)) (.add (.num 2 1) (.var 1)))) (.var 2)) (.add (.num 1 1) (.var 2))) (.add (.num 3 1) (.mul (.num 2 1) (.var 2)))) (.add (.num 2 1) (.var 2))))) (.mul (.num 7 1) (.sqrt (.mul (.mul (.mul (.mul (.add (.num 3 1) (.mul (.mul (.num 4 1) (.var 1)) (.add (.num 2 1) (.var 1)))) (.var 2)) (.add (.num 1 1) (.var 2))) (.add (.num 2 1) (.var 2))) (.add (.num 3 1) (.mul (.num 2 1) (.var 2))))))) (.mul (.mul (.num 2 1) (.var 2)) (.sqrt (.mul (.mul (.mul (.mul (.add (.num 3 1) (.mul (.mul (.num 4 1) (.var 1)) (.add (.num 2 1) (.var 1)))) (.var 2)) (.add (.num 1 1) (.var 2))) (.add (.num 2 1) (.var 2))) (.add (.num 3 1) (.mul (.num 2 1) (.var 2))))))))))) (.mul (.add (.num 2 1) (.var 2)) (.sqrt (.mul (.mul (.mul (.mul (.add (.num 1 1) (.var 1)) (.pow (.add (.num 1 1) (.mul (.num 2 1) (.var 1))) 2)) (.pow (.add (.num 3 1) (.mul (.num 2 1) (.var 1))) 3)) (.pow (.add (.num 1 1) (.var 2)) 3)) (.pow (.add (.num 3 1) (.mul (.num 2 1) (.var 2))) 3)))),
  .div (.add (.sub (.mul (.neg (.num 2 1)) (.sqrt (.div (.mul (.add (.num 2 1) (.var 1)) (.add (.num 1 1) (.mul (.num 2 1) (.var 1)))) (.add (.num 1 1) (.var 2))))) (.sqrt (.mul (.mul (.add (.num 2 1) (.var 1)) (.add (.num 1 1) (.mul (.num 2 1) (.var 1)))) (.add (.num 1 1) (.var 2))))) (.mul (.var 2) (.sub (.add (.sqrt (.div (.mul (.add (.num 2 1) (.var 1)) (.add (.num 1 1) (.mul (.num 2 1) (.var 1)))) (.add (.num 1 1) (.var 2)))) (.mul (.mul (.num 2 1) (.var 2)) (.sqrt (.div (.mul (.add (.num 2 1) (.var 1)) (.add (.num 1 1) (.mul (.num 2 1) (.var 1)))) (.add (.num 1 1) (.var 2)))))) (.mul (.num 2 1) (.sqrt (.mul (.mul (.add (.num 2 1) (.var 1)) (.add (.num 1 1) (.mul (.num 2 1) (.var 1)))) (.add (.num 1 1) (.var 2)))))))) (.sqrt (.mul (.mul (.mul (.mul (.add (.num 2 1) (.var 1)) (.add (.num 1 1) (.mul (.num 2 1) (.var 1)))) (.add (.num 1 1) (.var 2))) (.add (.num 1 1) (.mul (.num 2 1) (.var 2)))) (.add (.num 3 1) (.mul (.num 2 1) (.var 2))))),
  .mul (.sqrt (.div (.add (.num 1 1) (.mul (.num 2 1) (.var 2))) (.mul (.mul (.mul (.mul (.mul (.pow (.add (.num 2 1) (.var 1)) 6) (.pow (.add (.num 1 1) (.mul (.num 2 1) (.var 1))) 2)) (.add (.num 3 1) (.mul (.num 2 1) (.var 1)))) (.pow (.add (.num 1 1) (.var 2)) 2)) (.pow (.add (.num 2 1) (.var 2)) 4)) (.add (.num 3 1) (.mul (.num 2 1) (.var 2)))))) (.add (.add (.add (.add (.add (.add (.add (.add (.mul (.num 6 1) (.sqrt (.div (.mul (.mul (.mul (.mul (.pow (.add (.num 2 1) (.var 1)) 4) (.pow (.add (.num 1 1) (.mul (.num 2 1) (.var 1))) 2)) (.var 2)) (.pow (.add (.num 2 1) (.var 2)) 3)) (.add (.num 1 1) (.mul (.num 2 1) (.var 2)))) (.mul (.add (.num 3 1) (.mul (.num 2 1) (.var 1))) (.add (.num 3 1) (.mul (.num 2 1) (.var 2))))))) (.mul (.num 4 1) (.sqrt (.div (.mul (.mul (.mul (.mul (.pow (.add (.num 2 1) (.var 1)) 4) (.pow (.add (.num 1 1) (.mul (.num 2 1) (.var 1))) 4)) (.var 2)) (.pow (.add (.num 2 1) (.var 2)) 3)) (.add (.num 1 1) (.mul (.num 2 1) (.var 2)))) (.mul (.add (.num 3 1) (.mul (.num 2 1) (.var 1))) (.add (.num 3 1) (.mul (.num 2 1) (.var 2)))))))) (.mul (.num 2 1) (.sqrt (.div (.mul (.mul (.mul (.mul (.mul (.pow (.add (.num 1 1) (.var 1)) 2) (.pow (.add (.num 2 1) (.var 1)) 4)) (.pow (.add (.num 1 1) (.mul (.num 2 1) (.var 1))) 4)) (.var 2)) (.pow (.add (.num 2 1) (.var 2)) 3)) (.add (.num 1 1) (.mul (.num 2 1) (.var 2)))) (.mul (.add (.num 3 1) (.mul (.num 2 1) (.var 1))) (.add (.num 3 1) (.mul (.num 2 1) (.var 2)))))))) (.mul (.num 2 1) (.sqrt (.div (.mul (.mul (.mul (.mul (.mul (.pow (.add (.num 2 1) (.var 1)) 4) (.pow (.add (.num 1 1) (.mul (.num 2 1) (.var 1))) 4)) (.var 2)) (.pow (.add (.num 1 1) (.var 2)) 2)) (.pow (.add (.num 2 1) (.var 2)) 3)) (.add (.num 1 1) (.mul (.num 2 1) (.var 2)))) (.mul (.add (.num 3 1) (.mul (.num 2 1) (.var 1))) (.add (.num 3 1) (.mul (.num 2 1) (.var 2)))))))) (.sqrt (.div (.mul (.mul (.mul (.mul (.mul (.mul (.pow (.add (.num 1 1) (.var 1)) 2) (.pow (.add (.num 2 1) (.var 1)) 4)) (.pow (.add (.num 1 1) (.mul (.num 2 1) (.var 1))) 4)) (.var 2)) (.pow (.add (.num 1 1) (.var 2)) 2)) (.pow (.add (.num 2 1) (.var 2)) 3)) (.add (.num 1 1) (.mul (.num 2 1) (.var 2)))) (.mul (.add (.num 3 1) (.mul (.num 2 1) (.var 1))) (.add (.num 3 1) (.mul (.num 2 1) (.var 2))))))) (.mul (.mul (.mul (.mul (.num 3 1) (.hpow (.add (.num 2 1) (.var 1)) 2)) (.add (.num 1 1) (.mul (.num 2 1) (.var 1)))) (.hpow (.mul (.add (.num 1 1) (.var 2)) (.add (.num 2 1) (.var 2))) 1)) (.sqrt (.div (.mul (.var 2) (.add (.num 1 1) (.mul (.num 2 1) (.var 2)))) (.mul (.add (.add (.num 6 1) (.mul (.num 7 1) (.var 1))) (.mul (.num 2 1) (.pow (.var 1) 2))) (.add (.add (.num 3 1) (.mul (.num 5 1) (.var 2))) (.mul (.num 2 1) (.pow (.var 2) 2)))))))) (.mul (.mul (.mul (.mul (.num 9 1) (.hpow (.add (.num 2 1) (.var 1)) 2)) (.add (.num 1 1) (.mul (.num 2 1) (.var 1)))) (.pow (.add (.num 2 1) (.var 2)) 2)) (.sqrt (.div (.var 2) (.mul (.add (.add (.num 6 1) (.mul (.num 7 1) (.var 1))) (.mul (.num 2 1) (.pow (.var 1) 2))) (.add (.add (.add (.num 6 1) (.mul (.num 19 1) (.var 2))) (.mul (.num 16 1) (.pow (.var 2) 2))) (.mul (.num 4 1) (.pow (.var 2) 3)))))))) (.mul (.mul (.mul (.mul (.num 6 1) (.hpow (.add (.num 2 1) (.var 1)) 2)) (.pow (.add (.num 1 1) (.mul (.num 2 1) (.var 1))) 2)) (.pow (.add (.num 2 1) (.var 2)) 2)) (.sqrt (.div (.var 2) (.mul (.add (.add (.num 6 1) (.mul (.num 7 1) (.var 1))) (.mul (.num 2 1) (.pow (.var 1) 2))) (.add (.add (.add (.num 6 1) (.mul (.num 19 1) (.var 2))) (.mul (.num 16 1) (.pow (.var 2) 2))) (.mul (.num 4 1) (.pow (.var 2) 3)))))))) (.mul (.num 3 1) (.sqrt (.div (.mul (.mul (.mul (.mul (.pow (.add (.num 1 1) (.var 1)) 2) (.pow (.add (.num 2 1) (.var 1)) 4)) (.pow (.add (.num 1 1) (.mul (.num 2 1) (.var 1))) 4)) (.var 2)) (.pow (.add (.num 2 1) (.var 2)) 3)) (.mul (.add (.num 3 1) (.mul (.num 2 1) (.var 1))) (.add (.num 3 1) (.mul (.mul (.num 4 1) (.var 2)) (.add (.num 2 1) (.var 2))))))))),
  .div (.mul (.neg (.num 2 1)) (.sqrt (.div (.mul (.mul (.mul (.var 1) (.add (.num 1 1) (.var 1))) (.add (.neg (.num 2 1)) (.var 2))) (.add (.num 1 1) (.var 2))) (.mul (.add (.neg (.num 1 1)) (.var 2)) (.var 2))))) (.add (.num 1 1) (.mul (.num 2 1) (.var 1))),
  .div (.mul (.mul (.mul (.num 2 1) (.sqrt (.num 2 1))) (.sub (.num 3 1) (.mul (.num 2 1) (.var 2)))) (.sqrt (.div (.mul (.var 1) (.add (.num 1 1) (.var 1))) (.mul (.var 2) (.add (.sub (.add (.neg (.num 3 1)) (.mul (.num 11 1) (.var 2))) (.mul (.num 12 1) (.pow (.var 2) 2))) (.mul (.num 4 1) (.pow (.var 2) 3))))))) (.add (.num 1 1) (.mul (.num 2 1) (.var 1))),
  .div (.mul (.mul (.num 2 1) (.sqrt (.num 2 1))) (.sqrt (.div (.mul (.var 1) (.add (.num 1 1) (.var 1))) (.mul (.add (.neg (.num 1 1)) (.var 2)) (.var 2))))) (.add (.num 1 1) (.mul (.num 2 1) (.var 1))),
  .div (.mul (.mul (.neg (.num 2 1)) (.add (.neg (.num 3 1)) (.pow (.var 2) 2))) (.sqrt (.div (.mul (.var 1) (.add (.num 1 1) (.var 1))) (.mul (.pow (.add (.num 1 1) (.mul (.num 2 1) (.var 1))) 2) (.add (.neg (.num 1 1)) (.pow (.var 2) 2)))))) (.var 2),
  .mul (.mul (.mul (.neg (.num 2 1)) (.sqrt (.num 3 1))) (.sqrt (.div (.add (.num 1 1) (.var 1)) (.mul (.add (.num 1 1) (.mul (.num 2 1) (.var 1))) (.add (.var 2) (.mul (.num 2 1) (.pow (.var 2) 2))))))) (.add (.mul (.mul (.var 2) (.add (.neg (.num 5 1)) (.mul (.num 2 1) (.var 2)))) (.sqrt (.div (.var 1) (.mul (.mul (.add (.num 1 1) (.mul (.num 2 1) (.var 1))) (.var 2)) (.add (.add (.sub (.neg (.num 3 1)) (.mul (.num 2 1) (.var 2))) (.mul (.num 3 1) (.pow (.var 2) 2))) (.mul (.num 2 1) (.pow (.var 2) 3))))))) (.mul (.num 3 1) (.add (.sqrt (.div (.var 1) (.mul (.mul (.add (.num 1 1) (.mul (.num 2 1) (.var 1))) (.var 2)) (.add (.add (.sub (.neg (.num 3 1)) (.mul (.num 2 1) (.var 2))) (.mul (.num 3 1) (.pow (.var 2) 2))) (.mul (.num 2 1) (.pow (.var 2) 3)))))) (.mul (.num 2 1) (.sqrt (.div (.mul (.var 1) (.add (.neg (.num 1 1)) (.var 2))) (.mul (.add (.num 1 1) (.mul (.num 2 1) (.var 1))) (.add (.add (.mul (.num 3 1) (.var 2)) (.mul (.num 5 1) (.pow (.var 2) 2))) (.mul (.num 2 1) (.pow (.var 2) 3)))))))))),
  .div (.mul (.mul (.mul (.num 2 1) (.sqrt (.num 3 1))) (.sqrt (.div (.mul (.add (.num 1 1) (.var 1)) (.add (.num 1 1) (.var 2))) (.add (.num 1 1) (.mul (.num 2 1) (.var 1)))))) (.sub (.add (.mul (.mul (.add (.neg (.num 1 1)) (.var 2)) (.add (.neg (.num 1 1)) (.mul (.num 2 1) (.var 2)))) (.sqrt (.div (.var 1) (.mul (.add (.num 1 1) (.mul (.num 2 1) (.var 1))) (.add (.sub (.num 3 1) (.mul (.num 7 1) (.var 2))) (.mul (.num 4 1) (.pow (.var 2) 3))))))) (.div (.mul (.mul (.num 2 1) (.sub (.num 3 1) (.mul (.num 2 1) (.var 2)))) (.sqrt (.div (.mul (.var 1) (.add (.neg (.num 1 1)) (.var 2))) (.mul (.add (.num 1 1) (.mul (.num 2 1) (.var 1))) (.add (.neg (.num 3 1)) (.mul (.mul (.num 4 1) (.var 2)) (.add (.num 1 1) (.var 2)))))))) (.var 2))) (.div (.mul (.mul (.add (.neg (.num 3 1)) (.var 2)) (.add (.neg (.num 1 1)) (.mul (.num 2 1) (.var 2)))) (.sqrt (.div (.mul (.var 1) (.add (.neg (.num 1 1)) (.var 2))) (.mul (.add (.num 1 1) (.mul (.num 2 1) (.var 1))) (.add (.neg (.num 3 1)) (.mul (.mul (.num 4 1) (.var 2)) (.add (.num 1 1) (.var 2)))))))) (.var 2)))) (.add (.num 1 1) (.var 2)),
  .div (.mul (.mul (.neg (.num 2 1)) (.sqrt (.mul (.var 1) (.add (.num 1 1) (.var 1))))) (.add (.add (.neg (.num 3 1)) (.var 2)) (.pow (.var 2) 2))) (.mul (.mul (.add (.num 1 1) (.mul (.num 2 1) (.var 1))) (.var 2)) (.add (.num 1 1) (.var 2))),
  .div (.mul (.mul (.mul (.neg (.num 2 1)) (.sqrt (.num 3 1))) (.sqrt (.div (.mul (.add (.num 1 1) (.var 1)) (.add (.num 1 1) (.var 2))) (.add (.num 1 1) (.mul (.num 2 1) (.var 1)))))) (.add (.mul (.mul (.num 3 1) (.var 2)) (.sub (.add (.mul (.neg (.num 7 1)) (.sqrt (.div (.var 1) (.mul (.mul (.add (.num 1 1) (.mul (.num 2 1) (.var 1))) (.var 2)) (.add (.add (.neg (.num 2 1)) (.mul (.num 3 1) (.var 2))) (.mul (.num 2 1) (.pow (.var 2) 2))))))) (.mul (.mul (.num 6 1) (.var 2)) (.sqrt (.div (.var 1) (.mul (.mul (.add (.num 1 1) (.mul (.num 2 1) (.var 1))) (.var 2)) (.add (.add (.neg (.num 2 1)) (.mul (.num 3 1) (.var 2))) (.mul (.num 2 1) (.pow (.var 2) 2)))))))) (.mul (.num 2 1) (.sqrt (.div (.mul (.var 1) (.var 2)) (.mul (.add (.num 1 1) (.mul (.num 2 1) (.var 1))) (.add (.add (.neg (.num 2 1)) (.mul (.num 3 1) (.var 2))) (.mul (.num 2 1) (.pow (.var 2) 2))))))))) (.mul (.num 2 1) (.add (.add (.add (.mul (.num 6 1) (.sqrt (.div (.mul (.var 1) (.add (.neg (.num 1 1)) (.mul (.num 2 1) (.var 2)))) (.mul (.mul (.add (.num 1 1) (.mul (.num 2 1) (.var 1))) (.var 2)) (.add (.num 2 1) (.var 2)))))) (.mul (.num 3 1) (.sqrt (.div (.var 1) (.mul (.mul (.add (.num 1 1) (.mul (.num 2 1) (.var 1))) (.var 2)) (.add (.add (.neg (.num 2 1)) (.mul (.num 3 1) (.var 2))) (.mul (.num 2 1) (.pow (.var 2) 2)))))))) (.sqrt (.div (.mul (.var 1) (.var 2)) (.mul (.add (.num 1 1) (.mul (.num 2 1) (.var 1))) (.add (.add (.neg (.num 2 1)) (.mul (.num 3 1) (.var 2))) (.mul (.num 2 1) (.pow (.var 2) 2))))))) (.mul (.num 2 1) (.sqrt (.div (.mul (.var 1) (.pow (.var 2) 5)) (.mul (.add (.num 1 1) (.mul (.num 2 1) (.var 1))) (.add (.add (.neg (.num 2 1)) (.mul (.num 3 1) (.var 2))) (.mul (.num 2 1) (.pow (.var 2) 2))))))))))) (.hpow (.mul (.add (.num 1 1) (.var 2)) (.add (.num 3 1) (.mul (.num 2 1) (.var 2)))) 1),
  .mul (.mul (.mul (.num 2 1) (.sqrt (.num 3 1))) (.sqrt (.div (.mul (.add (.num 1 1) (.var 1)) (.add (.num 1 1) (.var 2))) (.add (.num 1 1) (.mul (.num 2 1) (.var 1)))))) (.add (.sub (.add (.mul (.mul (.var 2) (.add (.neg (.num 3 1)) (.mul (.sub (.num 7 1) (.mul (.num 2 1) (.var 2))) (.var 2)))) (.sqrt (.div (.mul (.var 1) (.add (.num 1 1) (.mul (.num 2 1) (.var 2)))) (.mul (.mul (.mul (.mul (.add (.num 1 1) (.mul (.num 2 1) (.var 1))) (.var 2)) (.pow (.add (.num 1 1) (.var 2)) 3)) (.pow (.add (.num 3 1) (.mul (.num 2 1) (.var 2))) 2)) (.add (.add (.neg (.num 2 1)) (.mul (.num 3 1) (.var 2))) (.mul (.num 2 1) (.pow (.var 2) 2))))))) (.mul (.mul (.mul (.num 3 1) (.sub (.num 3 1) (.mul (.num 2 1) (.var 2)))) (.var 2)) (.sqrt (.div (.mul (.var 1) (.add (.neg (.num 1 1)) (.mul (.num 2 1) (.var 2)))) (.mul (.mul (.mul (.mul (.add (.num 1 1) (.mul (.num 2 1) (.var 1))) (.var 2)) (.pow (.add (.num 1 1) (.var 2)) 3)) (.pow (.add (.num 3 1) (.mul (.num 2 1) (.var 2))) 2)) (.add (.add (.num 2 1) (.mul (.num 5 1) (.var 2))) (.mul (.num 2 1) (.pow (.var 2) 2)))))))) (.mul (.num 6 1) (.sqrt (.div (.mul (.mul (.var 1) (.pow (.add (.neg (.num 1 1)) (.var 2)) 2)) (.add (.neg (.num 1 1)) (.mul (.num 2 1) (.var 2)))) (.mul (.mul (.mul (.mul (.add (.num 1 1) (.mul (.num 2 1) (.var 1))) (.var 2)) (.pow (.add (.num 1 1) (.var 2)) 3)) (.pow (.add (.num 3 1) (.mul (.num 2 1) (.var 2))) 2)) (.add (.add (.num 2 1) (.mul (.num 5 1) (.var 2))) (.mul (.num 2 1) (.pow (.var 2) 2)))))))) (.mul (.add (.neg (.num 1 1)) (.mul (.num 2 1) (.var 2))) (.sqrt (.div (.mul (.mul (.var 1) (.var 2)) (.add (.num 1 1) (.mul (.num 2 1) (.var 2)))) (.mul (.mul (.add (.num 1 1) (.mul (.num 2 1) (.var 1))) (.pow (.add (.num 3 1) (.mul (.num 2 1) (.var 2))) 2)) (.add (.add (.add (.neg (.num 2 1)) (.var 2)) (.mul (.num 5 1) (.pow (.var 2) 2))) (.mul (.num 2 1) (.pow (.var 2) 3)))))))),
  .mul (.mul (.neg (.num 2 1)) (.sqrt (.div (.add (.num 1 1) (.var 1)) (.mul (.mul (.mul (.add (.num 1 1) (.mul (.num 2 1) (.var 1))) (.pow (.add (.num 2 1) (.var 2)) 3)) (.pow (.add (.num 3 1) (.mul (.num 2 1) (.var 2))) 2)) (.add (.var 2) (.pow (.var 2) 2)))))) (.add (.mul (.neg (.num 12 1)) (.sqrt (.div (.var 1) (.add (.add (.add (.num 1 1) (.mul (.num 2 1) (.var 1))) (.var 2)) (.mul (.mul (.num 2 1) (.var 1)) (.var 2)))))) (.mul (.var 2) (.add (.mul (.neg (.num 2 1)) (.sqrt (.div (.mul (.var 1) (.add (.num 1 1) (.var 2))) (.add (.num 1 1) (.mul (.num 2 1) (.var 1)))))) (.mul (.var 2) (.add (.add (.mul (.neg (.num 3 1)) (.sqrt (.div (.mul (.var 1) (.add (.num 1 1) (.var 2))) (.add (.num 1 1) (.mul (.num 2 1) (.var 1)))))) (.mul (.num 21 1) (.sqrt (.div (.var 1) (.add (.add (.add (.num 1 1) (.mul (.num 2 1) (.var 1))) (.var 2)) (.mul (.mul (.num 2 1) (.var 1)) (.var 2))))))) (.mul (.mul (.num 2 1) (.var 2)) (.add (.sqrt (.div (.mul (.var 1) (.add (.num 1 1) (.var 2))) (.add (.num 1 1) (.mul (.num 2 1) (.var 1))))) (.mul (.num 6 1) (.sqrt (.div (.var 1) (.add (.add (.add (.num 1 1) (.mul (.num 2 1) (.var 1))) (.var 2)) (.mul (.mul (.num 2 1) (.var 1)) (.var 2))))))))))))),
  .div (.mul (.mul (.mul (.neg (.num 2 1)) (.sqrt (.num 2 1))) (.sqrt (.div (.mul (.add (.num 1 1) (.var 1)) (.add (.num 1 1) (.var 2))) (.mul (.add (.num 1 1) (.mul (.num 2 1) (.var 1))) (.add (.add (.mul (.num 10 1) (.var 2)) (.mul (.num 9 1) (.pow (.var 2) 2))) (.mul (.num 2 1) (.pow (.var 2) 3))))))) (.add (.add (.add (.mul (.num 30 1) (.sqrt (.div (.mul (.var 1) (.var 2)) (.mul (.add (.num 1 1) (.mul (.num 2 1) (.var 1))) (.add (.num 5 1) (.mul (.num 2 1) (.var 2))))))) (.mul (.num 47 1) (.sqrt (.div (.mul (.var 1) (.pow (.var 2) 3)) (.mul (.add (.num 1 1) (.mul (.num 2 1) (.var 1))) (.add (.num 5 1) (.mul (.num 2 1) (.var 2)))))))) (.mul (.num 24 1) (.sqrt (.div (.mul (.var 1) (.pow (.var 2) 5)) (.mul (.add (.num 1 1) (.mul (.num 2 1) (.var 1))) (.add (.num 5 1) (.mul (.num 2 1) (.var 2)))))))) (.mul (.num 4 1) (.sqrt (.div (.mul (.var 1) (.pow (.var 2) 7)) (.mul (.add (.num 1 1) (.mul (.num 2 1) (.var 1))) (.add (.num 5 1) (.mul (.num 2 1) (.var 2))))))))) (.add (.add (.add (.num 6 1) (.mul (.num 13 1) (.var 2))) (.mul (.num 9 1) (.pow (.var 2) 2))) (.mul (.num 2 1) (.pow (.var 2) 3))),
  .div (.mul (.mul (.mul (.num 2 1) (.sqrt (.num 2 1))) (.sqrt (.div (.add (.num 1 1) (.var 1)) (.mul (.add (.num 1 1) (.mul (.num 2 1) (.var 1))) (.add (.add (.add (.num 30 1) (.mul (.num 47 1) (.var 2))) (.mul (.num 24 1) (.pow (.var 2) 2))) (.mul (.num 4 1) (.pow (.var 2) 3))))))) (.add (.mul (.num 6 1) (.add (.mul (.num 3 1) (.sqrt (.div (.mul (.var 1) (.add (.num 1 1) (.var 2))) (.add (.num 1 1) (.mul (.num 2 1) (.var 1)))))) (.mul (.num 2 1) (.sqrt (.div (.var 1) (.add (.add (.add (.num 1 1) (.mul (.num 2 1) (.var 1))) (.var 2)) (.mul (.mul (.num 2 1) (.var 1)) (.var 2)))))))) (.mul (.var 2) (.sub (.sub (.add (.mul (.num 38 1) (.sqrt (.div (.mul (.var 1) (.add (.num 1 1) (.var 2))) (.add (.num 1 1) (.mul (.num 2 1) (.var 1)))))) (.mul (.mul (.num 4 1) (.var 2)) (.sqrt (.div (.mul (.var 1) (.add (.num 1 1) (.var 2))) (.add (.num 1 1) (.mul (.num 2 1) (.var 1))))))) (.mul (.num 9 1) (.sqrt (.div (.var 1) (.add (.add (.add (.num 1 1) (.mul (.num 2 1) (.var 1))) (.var 2)) (.mul (.mul (.num 2 1) (.var 1)) (.var 2))))))) (.mul (.mul (.num 18 1) (.var 2)) (.sqrt (.div (.var 1) (.add (.add (.add (.num 1 1) (.mul (.num 2 1) (.var 1))) (.var 2)) (.mul (.mul (.num 2 1) (.var 1)) (.var 2)))))))))) (.mul (.add (.num 2 1) (.var 2)) (.add (.num 3 1) (.mul (.num 2 1) (.var 2)))),
  .div (.mul (.mul (.neg (.num 2 1)) (.sqrt (.div (.add (.num 1 1) (.var 1)) (.mul (.mul (.add (.num 1 1) (.mul (.num 2 1) (.var 1))) (.add (.num 3 1) (.var 2))) (.add (.add (.add (.num 30 1) (.mul (.num 47 1) (.var 2))) (.mul (.num 24 1) (.pow (.var 2) 2))) (.mul (.num 4 1) (.pow (.var 2) 3))))))) (.add (.add (.add (.add (.mul (.mul (.num 4 1) (.add (.num 1 1) (.mul (.num 2 1) (.var 2)))) (.sqrt (.div (.mul (.mul (.mul (.var 1) (.var 2)) (.add (.num 1 1) (.var 2))) (.add (.num 3 1) (.mul (.num 2 1) (.var 2)))) (.mul (.add (.num 1 1) (.mul (.num 2 1) (.var 1))) (.add (.num 5 1) (.mul (.num 2 1) (.var 2))))))) (.mul (.mul (.add (.num 2 1) (.var 2)) (.add (.num 1 1) (.mul (.num 2 1) (.var 2)))) (.sqrt (.div (.mul (.mul (.mul (.var 1) (.var 2)) (.add (.num 1 1) (.var 2))) (.add (.num 3 1) (.mul (.num 2 1) (.var 2)))) (.mul (.add (.num 1 1) (.mul (.num 2 1) (.var 1))) (.add (.num 5 1) (.mul (.num 2 1) (.var 2)))))))) (.mul (.mul (.num 18 1) (.add (.num 1 1) (.mul (.num 2 1) (.var 2)))) (.sqrt (.div (.mul (.mul (.var 1) (.var 2)) (.add (.num 1 1) (.var 2))) (.mul (.add (.num 1 1) (.mul (.num 2 1) (.var 1))) (.add (.add (.num 15 1) (.mul (.num 16 1) (.var 2))) (.mul (.num 4 1) (.pow (.var 2) 2)))))))) (.mul (.num 30 1) (.sqrt (.div (.mul (.var 1) (.var 2)) (.mul (.add (.num 1 1) (.mul (.num 2 1) (.var 1))) (.add (.add (.add (.num 15 1) (.mul (.num 31 1) (.var 2))) (.mul (.num 20 1) (.pow (.var 2) 2))) (.mul (.num 4 1) (.pow (.var 2) 3)))))))) (.mul (.mul (.num 24 1) (.add (.num 1 1) (.mul (.num 2 1) (.var 2)))) (.sqrt (.div (.mul (.var 1) (.var 2)) (.mul (.add (.num 1 1) (.mul (.num 2 1) (.var 1))) (.add (.add (.add (.num 15 1) (.mul (.num 31 1) (.var 2))) (.mul (.num 20 1) (.pow (.var 2) 2))) (.mul (.num 4 1) (.pow (.var 2) 3))))))))) (.add (.num 2 1) (.var 2)),
  .div (.sqrt (.mul (.add (.neg (.num 2 1)) (.var 2)) (.add (.num 1 1) (.var 2)))) (.mul (.add (.num 1 1) (.mul (.num 2 1) (.var 1))) (.sqrt (.mul (.add (.neg (.num 1 1)) (.var 2)) (.var 2)))),
  .div (.sqrt (.num 2 1)) (.mul (.add (.num 1 1) (.mul (.num 2 1) (.var 1))) (.sqrt (.mul (.var 2) (.add (.var 2) (.div (.num 1 1) (.add (.neg (.num 3 1)) (.mul (.num 2 1) (.var 2)))))))),
  .neg (.div (.sqrt (.mul (.add (.neg (.num 2 1)) (.var 2)) (.add (.num 1 1) (.var 2)))) (.sqrt (.mul (.add (.neg (.num 1 1)) (.var 2)) (.var 2)))),
  .neg (.sqrt (.div (.add (.neg (.num 6 1)) (.mul (.num 4 1) (.var 2))) (.add (.sub (.var 2) (.mul (.num 3 1) (.pow (.var 2) 2))) (.mul (.num 2 1) (.pow (.var 2) 3))))),
  .div (.add (.neg (.num 3 1)) (.pow (.var 2) 2)) (.mul (.add (.var 2) (.mul (.mul (.num 2 1) (.var 1)) (.var 2))) (.sqrt (.add (.neg (.num 1 1)) (.pow (.var 2) 2)))),
  .div (.mul (.sqrt (.num 3 1)) (.add (.mul (.mul (.var 2) (.sqrt (.div (.mul (.add (.num 1 1) (.var 1)) (.add (.num 1 1) (.var 2))) (.add (.neg (.num 1 1)) (.var 2))))) (.add (.neg (.num 5 1)) (.mul (.num 2 1) (.var 2)))) (.mul (.num 3 1) (.add (.sqrt (.div (.mul (.add (.num 1 1) (.var 1)) (.add (.num 1 1) (.var 2))) (.add (.neg (.num 1 1)) (.var 2)))) (.mul (.num 2 1) (.sqrt (.mul (.add (.num 1 1) (.var 1)) (.add (.neg (.num 1 1)) (.pow (.var 2) 2))))))))) (.mul (.mul (.mul (.add (.num 1 1) (.mul (.num 2 1) (.var 1))) (.var 2)) (.add (.num 1 1) (.var 2))) (.sqrt (.mul (.add (.num 1 1) (.var 1)) (.add (.num 3 1) (.mul (.mul (.num 4 1) (.var 2)) (.add (.num 2 1) (.var 2))))))),
  .div (.mul (.mul (.sqrt (.num 2 1)) (.sqrt (.div (.mul (.mul (.add (.num 1 1) (.var 1)) (.add (.num 1 1) (.mul (.num 2 1) (.var 1)))) (.add (.add (.neg (.num 1 1)) (.var 2)) (.mul (.num 2 1) (.pow (.var 2) 2)))) (.var 2)))) (.add (.sub (.sub (.sub (.add (.mul (.mul (.neg (.num 2 1)) (.add (.num 1 1) (.var 2))) (.sqrt (.div (.add (.num 1 1) (.var 1)) (.mul (.mul (.add (.num 1 1) (.mul (.num 2 1) (.var 1))) (.add (.neg (.num 1 1)) (.mul (.num 2 1) (.var 2)))) (.add (.neg (.num 1 1)) (.pow (.var 2) 2)))))) (.mul (.mul (.mul (.num 2 1) (.var 2)) (.add (.num 1 1) (.var 2))) (.sqrt (.div (.add (.num 1 1) (.var 1)) (.mul (.mul (.add (.num 1 1) (.mul (.num 2 1) (.var 1))) (.add (.neg (.num 1 1)) (.mul (.num 2 1) (.var 2)))) (.add (.neg (.num 1 1)) (.pow (.var 2) 2))))))) (.mul (.mul (.num 2 1) (.add (.neg (.num 2 1)) (.var 2))) (.sqrt (.div (.mul (.add (.num 1 1) (.var 1)) (.add (.num 1 1) (.var 2))) (.mul (.add (.num 1 1) (.mul (.num 2 1) (.var 1))) (.add (.sub (.num 1 1) (.mul (.num 3 1) (.var 2))) (.mul (.num 2 1) (.pow (.var 2) 2)))))))) (.mul (.add (.neg (.num 2 1)) (.var 2)) (.sqrt (.div (.mul (.mul (.add (.num 1 1) (.var 1)) (.add (.num 1 1) (.mul (.num 2 1) (.var 1)))) (.add (.num 1 1) (.var 2))) (.add (.sub (.num 1 1) (.mul (.num 3 1) (.var 2))) (.mul (.num 2 1) (.pow (.var 2) 2))))))) (.mul (.add (.num 1 1) (.var 2)) (.sqrt (.div (.mul (.add (.num 1 1) (.var 1)) (.add (.num 1 1) (.mul (.num 2 1) (.var 1)))) (.add (.sub (.sub (.num 1 1) (.mul (.num 2 1) (.var 2))) (.pow (.var 2) 2)) (.mul (.num 2 1) (.pow (.var 2) 3))))))) (.mul (.mul (.var 2) (.add (.num 1 1) (.var 2))) (.sqrt (.div (.mul (.add (.num 1 1) (.var 1)) (.add (.num 1 1) (.mul (.num 2 1) (.var 1)))) (.add (.sub (.sub (.num 1 1) (.mul (.num 2 1) (.var 2))) (.pow (.var 2) 2)) (.mul (.num 2 1) (.pow (.var 2) 3)))))))) (.mul (.mul (.add (.num 1 1) (.var 1)) (.add (.num 3 1) (.mul (.num 2 1) (.var 1)))) (.add (.num 1 1) (.var 2))),
  .neg (.div (.mul (.sqrt (.div (.add (.num 1 1) (.mul (.num 2 1) (.var 1))) (.mul (.add (.num 1 1) (.var 1)) (.add (.neg (.var 2)) (.pow (.var 2) 3))))) (.sub (.add (.add (.add (.add (.sub (.sub (.mul (.neg (.num 3 1)) (.sqrt (.div (.mul (.add (.num 1 1) (.var 1)) (.add (.num 1 1) (.mul (.num 2 1) (.var 1)))) (.var 2)))) (.mul (.num 6 1) (.sqrt (.div (.mul (.add (.num 1 1) (.var 1)) (.var 2)) (.add (.num 1 1) (.mul (.num 2 1) (.var 1))))))) (.mul (.num 3 1) (.sqrt (.mul (.mul (.add (.num 1 1) (.var 1)) (.add (.num 1 1) (.mul (.num 2 1) (.var 1)))) (.var 2))))) (.mul (.num 2 1) (.sqrt (.div (.mul (.add (.num 1 1) (.var 1)) (.pow (.var 2) 3)) (.add (.num 1 1) (.mul (.num 2 1) (.var 1))))))) (.sqrt (.mul (.mul (.add (.num 1 1) (.var 1)) (.add (.num 1 1) (.mul (.num 2 1) (.var 1)))) (.pow (.var 2) 3)))) (.mul (.num 2 1) (.sqrt (.div (.mul (.add (.num 1 1) (.var 1)) (.pow (.var 2) 5)) (.add (.num 1 1) (.mul (.num 2 1) (.var 1))))))) (.sqrt (.mul (.mul (.add (.num 1 1) (.var 1)) (.add (.num 1 1) (.mul (.num 2 1) (.var 1)))) (.pow (.var 2) 5)))) (.mul (.num 6 1) (.sqrt (.div (.add (.num 1 1) (.var 1)) (.add (.var 2) (.mul (.mul (.num 2 1) (.var 1)) (.var 2)))))))) (.mul (.add (.num 3 1) (.mul (.num 2 1) (.var 1))) (.add (.num 1 1) (.var 2)))),
  .mul (.sqrt (.div (.add (.num 3 1) (.mul (.num 6 1) (.var 1))) (.mul (.mul (.mul (.mul (.add (.num 1 1) (.var 1)) (.pow (.add (.num 3 1) (.mul (.num 2 1) (.var 1))) 2)) (.pow (.var 2) 2)) (.pow (.add (.num 1 1) (.var 2)) 2)) (.add (.num 3 1) (.mul (.mul (.num 4 1) (.var 2)) (.add (.num 2 1) (.var 2))))))) (.sub (.neg (.mul (.mul (.var 2) (.add (.neg (.num 5 1)) (.mul (.num 2 1) (.var 2)))) (.add (.mul (.num 2 1) (.sqrt (.div (.mul (.add (.num 1 1) (.var 1)) (.add (.num 1 1) (.var 2))) (.mul (.add (.num 1 1) (.mul (.num 2 1) (.var 1))) (.add (.neg (.num 1 1)) (.var 2)))))) (.sqrt (.div (.mul (.mul (.add (.num 1 1) (.var 1)) (.add (.num 1 1) (.mul (.num 2 1) (.var 1)))) (.add (.num 1 1) (.var 2))) (.add (.neg (.num 1 1)) (.var 2))))))) (.mul (.num 3 1) (.add (.add (.add (.mul (.num 2 1) (.sqrt (.div (.mul (.add (.num 1 1) (.var 1)) (.add (.num 1 1) (.var 2))) (.mul (.add (.num 1 1) (.mul (.num 2 1) (.var 1))) (.add (.neg (.num 1 1)) (.var 2)))))) (.sqrt (.div (.mul (.mul (.add (.num 1 1) (.var 1)) (.add (.num 1 1) (.mul (.num 2 1) (.var 1)))) (.add (.num 1 1) (.var 2))) (.add (.neg (.num 1 1)) (.var 2))))) (.mul (.num 4 1) (.sqrt (.div (.mul (.add (.num 1 1) (.var 1)) (.add (.neg (.num 1 1)) (.pow (.var 2) 2))) (.add (.num 1 1) (.mul (.num 2 1) (.var 1))))))) (.mul (.num 2 1) (.sqrt (.mul (.mul (.add (.num 1 1) (.var 1)) (.add (.num 1 1) (.mul (.num 2 1) (.var 1)))) (.add (.neg (.num 1 1)) (.pow (.var 2) 2)))))))),
  .neg (.div (.mul (.sqrt (.num 3 1)) (.add (.add (.neg (.num 3 1)) (.var 2)) (.mul (.num 2 1) (.pow (.var 2) 2)))) (.mul (.add (.var 2) (.mul (.mul (.num 2 1) (.var 1)) (.var 2))) (.sqrt (.mul (.add (.num 1 1) (.var 2)) (.add (.sub (.num 3 1) (.mul (.num 7 1) (.var 2))) (.mul (.num 4 1) (.pow (.var 2) 3))))))),
  .div (.add (.add (.neg (.num 3 1)) (.var 2)) (.pow (.var 2) 2)) (.mul (.add (.num 1 1) (.var 2)) (.add (.var 2) (.mul (.mul (.num 2 1) (.var 1)) (.var 2)))),
  .div (.mul (.sqrt (.num 3 1)) (.add (.mul (.mul (.var 2) (.add (.neg (.num 19 1)) (.mul (.mul (.num 4 1) (.var 2)) (.add (.num 3 1) (.var 2))))) (.sqrt (.add (.add (.num 9 1) (.mul (.var 2) (.add (.num 5 1) (.var 2)))) (.div (.num 15 1) (.add (.neg (.num 1 1)) (.mul (.num 2 1) (.var 2))))))) (.mul (.num 6 1) (.add (.mul (.num 2 1) (.sqrt (.mul (.mul (.mul (.add (.num 1 1) (.var 2)) (.add (.num 2 1) (.var 2))) (.add (.neg (.num 1 1)) (.mul (.num 2 1) (.var 2)))) (.add (.num 3 1) (.mul (.num 2 1) (.var 2)))))) (.sqrt (.add (.add (.num 9 1) (.mul (.var 2) (.add (.num 5 1) (.var 2)))) (.div (.num 15 1) (.add (.neg (.num 1 1)) (.mul (.num 2 1) (.var 2)))))))))) (.mul (.mul (.mul (.mul (.add (.num 1 1) (.mul (.num 2 1) (.var 1))) (.sqrt (.var 2))) (.hpow (.add (.num 1 1) (.var 2)) 1)) (.add (.num 2 1) (.var 2))) (.pow (.add (.num 3 1) (.mul (.num 2 1) (.var 2))) 2)),
  .div (.mul (.sqrt (.num 3 1)) (.add (.add (.neg (.num 3 1)) (.var 2)) (.mul (.num 2 1) (.pow (.var 2) 2)))) (.mul (.var 2) (.sqrt (.mul (.mul (.mul (.add (.neg (.num 1 1)) (.var 2)) (.add (.num 1 1) (.var 2))) (.add (.neg (.num 1 1)) (.mul (.num 2 1) (.var 2)))) (.add (.num 3 1) (.mul (.num 2 1) (.var 2)))))),
  .sub (.add (.neg (.num 1 1)) (.div (.num 3 1) (.var 2))) (.div (.num 3 1) (.add (.num 1 1) (.var 2))),
  .neg (.div (.num 1 1) (.mul (.add (.num 1 1) (.var 2)) (.sqrt (.div (.mul (.var 2) (.add (.num 3 1) (.mul (.num 2 1) (.var 2)))) (.add (.add (.neg (.num 6 1)) (.mul (.num 9 1) (.var 2))) (.mul (.num 6 1) (.pow (.var 2) 2))))))),
  .mul (.mul (.sqrt (.num 3 1)) (.sqrt (.mul (.add (.num 1 1) (.var 1)) (.add (.num 1 1) (.var 2))))) (.add (.add (.add (.div (.mul (.mul (.num 2 1) (.add (.num 2 1) (.mul (.num 9 1) (.var 1)))) (.var 2)) (.mul (.mul (.mul (.add (.num 1 1) (.mul (.num 2 1) (.var 1))) (.add (.num 1 1) (.var 2))) (.sqrt (.mul (.mul (.mul (.mul (.mul (.add (.num 1 1) (.var 1)) (.var 2)) (.add (.num 1 1) (.var 2))) (.add (.num 2 1) (.var 2))) (.add (.neg (.num 1 1)) (.mul (.num 2 1) (.var 2)))) (.add (.num 1 1) (.mul (.num 2 1) (.var 2)))))) (.add (.num 3 1) (.mul (.num 2 1) (.var 2))))) (.div (.mul (.mul (.num 6 1) (.add (.neg (.num 1 1)) (.mul (.num 2 1) (.var 1)))) (.pow (.var 2) 2)) (.mul (.mul (.mul (.add (.num 1 1) (.mul (.num 2 1) (.var 1))) (.add (.num 1 1) (.var 2))) (.sqrt (.mul (.mul (.mul (.mul (.mul (.add (.num 1 1) (.var 1)) (.var 2)) (.add (.num 1 1) (.var 2))) (.add (.num 2 1) (.var 2))) (.add (.neg (.num 1 1)) (.mul (.num 2 1) (.var 2)))) (.add (.num 1 1) (.mul (.num 2 1) (.var 2)))))) (.add (.num 3 1) (.mul (.num 2 1) (.var 2)))))) (.div (.mul (.mul (.num 2 1) (.pow (.var 2) 2)) (.add (.sub (.neg (.div (.sqrt (.div (.mul (.mul (.mul (.mul (.var 2) (.add (.num 1 1) (.var 2))) (.add (.num 2 1) (.var 2))) (.add (.neg (.num 1 1)) (.mul (.num 2 1) (.var 2)))) (.add (.num 1 1) (.mul (.num 2 1) (.var 2)))) (.add (.num 1 1) (.var 1)))) (.mul (.add (.num 2 1) (.var 2)) (.add (.num 1 1) (.mul (.num 2 1) (.var 2)))))) (.div (.mul (.mul (.mul (.num 4 1) (.add (.num 1 1) (.var 1))) (.var 2)) (.add (.num 1 1) (.var 2))) (.mul (.add (.num 1 1) (.mul (.num 2 1) (.var 1))) (.sqrt (.mul (.mul (.mul (.mul (.mul (.add (.num 1 1) (.var 1)) (.var 2)) (.add (.num 1 1) (.var 2))) (.add (.num 2 1) (.var 2))) (.add (.neg (.num 1 1)) (.mul (.num 2 1) (.var 2)))) (.add (.num 1 1) (.mul (.num 2 1) (.var 2)))))))) (.div (.mul (.add (.num 1 1) (.var 2)) (.sqrt (.div (.mul (.mul (.add (.num 1 1) (.var 1)) (.var 2)) (.add (.num 1 1) (.mul (.num 2 1) (.var 2)))) (.add (.add (.add (.neg (.num 2 1)) (.var 2)) (.mul (.num 5 1) (.pow (.var 2) 2))) (.mul (.num 2 1) (.pow (.var 2) 3)))))) (.add (.num 1 1) (.var 1))))) (.mul (.pow (.add (.num 1 1) (.var 2)) 2) (.add (.num 3 1) (.mul (.num 2 1) (.var 2)))))) (.mul (.num 3 1) (.sub (.add (.div (.mul (.neg (.num 4 1)) (.var 1)) (.mul (.mul (.mul (.add (.num 1 1) (.mul (.num 2 1) (.var 1))) (.add (.num 1 1) (.var 2))) (.sqrt (.mul (.mul (.mul (.mul (.mul (.add (.num 1 1) (.var 1)) (.var 2)) (.add (.num 1 1) (.var 2))) (.add (.num 2 1) (.var 2))) (.add (.neg (.num 1 1)) (.mul (.num 2 1) (.var 2)))) (.add (.num 1 1) (.mul (.num 2 1) (.var 2)))))) (.add (.num 3 1) (.mul (.num 2 1) (.var 2))))) (.mul (.num 2 1) (.sqrt (.div (.mul (.pow (.add (.neg (.num 1 1)) (.var 2)) 2) (.add (.neg (.num 1 1)) (.mul (.num 2 1) (.var 2)))) (.mul (.mul (.mul (.mul (.add (.num 1 1) (.var 1)) (.var 2)) (.pow (.add (.num 1 1) (.var 2)) 3)) (.pow (.add (.num 3 1) (.mul (.num 2 1) (.var 2))) 2)) (.add (.add (.num 2 1) (.mul (.num 5 1) (.var 2))) (.mul (.num 2 1) (.pow (.var 2) 2)))))))) (.div (.mul (.num 3 1) (.sqrt (.div (.mul (.var 2) (.add (.neg (.num 1 1)) (.mul (.num 2 1) (.var 2)))) (.mul (.add (.num 1 1) (.var 1)) (.add (.add (.add (.num 2 1) (.mul (.num 7 1) (.var 2))) (.mul (.num 7 1) (.pow (.var 2) 2))) (.mul (.num 2 1) (.pow (.var 2) 3))))))) (.add (.add (.num 3 1) (.mul (.num 5 1) (.var 2))) (.mul (.num 2 1) (.pow (.var 2) 2))))))),
  .div (.add (.neg (.num 2 1)) (.mul (.var 2) (.add (.num 2 1) (.var 2)))) (.mul (.mul (.add (.num 1 1) (.mul (.num 2 1) (.var 1))) (.add (.num 1 1) (.var 2))) (.sqrt (.mul (.var 2) (.add (.num 2 1) (.var 2))))),
  .div (.sqrt (.num 2 1)) (.mul (.add (.num 1 1) (.mul (.num 2 1) (.var 1))) (.sqrt (.mul (.add (.num 1 1) (.var 2)) (.add (.num 2 1) (.var 2))))),
  .neg (.mul (.mul (.sqrt (.num 3 1)) (.sqrt (.div (.mul (.add (.num 1 1) (.var 1)) (.add (.num 1 1) (.var 2))) (.add (.num 3 1) (.mul (.num 2 1) (.var 1)))))) (.add (.add (.add (.add (.add (.add (.add (.neg (.div (.mul (.mul (.add (.num 1 1) (.mul (.num 2 1) (.var 1))) (.var 2)) (.add (.neg (.num 1 1)) (.mul (.num 2 1) (.var 2)))) (.mul (.sqrt (.div (.mul (.mul (.mul (.mul (.mul (.add (.num 1 1) (.var 1)) (.add (.num 3 1) (.mul (.num 2 1) (.var 1)))) (.var 2)) (.add (.num 1 1) (.var 2))) (.add (.num 2 1) (.var 2))) (.add (.neg (.num 1 1)) (.mul (.num 2 1) (.var 2)))) (.add (.num 1 1) (.mul (.num 2 1) (.var 2))))) (.add (.num 3 1) (.mul (.num 2 1) (.var 2)))))) (.div (.mul (.mul (.num 2 1) (.sub (.num 1 1) (.mul (.num 2 1) (.var 2)))) (.var 2)) (.sqrt (.div (.mul (.mul (.mul (.mul (.mul (.mul (.add (.num 1 1) (.var 1)) (.add (.num 3 1) (.mul (.num 2 1) (.var 1)))) (.var 2)) (.add (.num 1 1) (.var 2))) (.add (.num 2 1) (.var 2))) (.add (.neg (.num 1 1)) (.mul (.num 2 1) (.var 2)))) (.pow (.add (.num 3 1) (.mul (.num 2 1) (.var 2))) 2)) (.add (.num 1 1) (.mul (.num 2 1) (.var 2))))))) (.div (.mul (.mul (.num 6 1) (.add (.num 1 1) (.mul (.num 2 1) (.var 1)))) (.add (.neg (.num 1 1)) (.var 2))) (.mul (.add (.num 1 1) (.var 2)) (.sqrt (.div (.mul (.mul (.mul (.mul (.mul (.mul (.add (.num 1 1) (.var 1)) (.add (.num 3 1) (.mul (.num 2 1) (.var 1)))) (.var 2)) (.add (.num 1 1) (.var 2))) (.add (.num 2 1) (.var 2))) (.add (.num 1 1) (.mul (.num 2 1) (.var 2)))) (.pow (.add (.num 3 1) (.mul (.num 2 1) (.var 2))) 2)) (.add (.neg (.num 1 1)) (.mul (.num 2 1) (.var 2)))))))) (.mul (.mul (.mul (.mul (.num 2 1) (.add (.neg (.num 3 1)) (.var 2))) (.var 2)) (.add (.neg (.num 1 1)) (.mul (.num 2 1) (.var 2)))) (.sqrt (.div (.add (.num 1 1) (.mul (.num 2 1) (.var 2))) (.mul (.mul (.mul (.mul (.add (.add (.num 3 1) (.mul (.num 5 1) (.var 1))) (.mul (.num 2 1) (.pow (.var 1) 2))) (.var 2)) (.pow (.add (.num 1 1) (.var 2)) 3)) (.pow (.add (.num 3 1) (.mul (.num 2 1) (.var 2))) 2)) (.add (.add (.neg (.num 2 1)) (.mul (.num 3 1) (.var 2))) (.mul (.num 2 1) (.pow (.var 2) 2)))))))) (.mul (.mul (.mul (.add (.neg (.num 3 1)) (.var 2)) (.var 2)) (.add (.neg (.num 1 1)) (.mul (.num 2 1) (.var 2)))) (.sqrt (.div (.mul (.pow (.add (.num 1 1) (.mul (.num 2 1) (.var 1))) 2) (.add (.num 1 1) (.mul (.num 2 1) (.var 2)))) (.mul (.mul (.mul (.mul (.add (.add (.num 3 1) (.mul (.num 5 1) (.var 1))) (.mul (.num 2 1) (.pow (.var 1) 2))) (.var 2)) (.pow (.add (.num 1 1) (.var 2)) 3)) (.pow (.add (.num 3 1) (.mul (.num 2 1) (.var 2))) 2)) (.add (.add (.neg (.num 2 1)) (.mul (.num 3 1) (.var 2))) (.mul (.num 2 1) (.pow (.var 2) 2)))))))) (.mul (.mul (.mul (.num 3 1) (.var 2)) (.add (.neg (.num 3 1)) (.mul (.num 2 1) (.var 2)))) (.sqrt (.div (.mul (.pow (.add (.num 1 1) (.mul (.num 2 1) (.var 1))) 2) (.add (.neg (.num 1 1)) (.mul (.num 2 1) (.var 2)))) (.mul (.mul (.mul (.mul (.add (.add (.num 3 1) (.mul (.num 5 1) (.var 1))) (.mul (.num 2 1) (.pow (.var 1) 2))) (.var 2)) (.pow (.add (.num 1 1) (.var 2)) 3)) (.pow (.add (.num 3 1) (.mul (.num 2 1) (.var 2))) 2)) (.add (.add (.num 2 1) (.mul (.num 5 1) (.var 2))) (.mul (.num 2 1) (.pow (.var 2) 2)))))))) (.mul (.num 12 1) (.sqrt (.div (.mul (.pow (.add (.neg (.num 1 1)) (.var 2)) 2) (.add (.neg (.num 1 1)) (.mul (.num 2 1) (.var 2)))) (.mul (.mul (.mul (.mul (.add (.add (.num 3 1) (.mul (.num 5 1) (.var 1))) (.mul (.num 2 1) (.pow (.var 1) 2))) (.var 2)) (.pow (.add (.num 1 1) (.var 2)) 3)) (.pow (.add (.num 3 1) (.mul (.num 2 1) (.var 2))) 2)) (.add (.add (.num 2 1) (.mul (.num 5 1) (.var 2))) (.mul (.num 2 1) (.pow (.var 2) 2)))))))) (.div (.mul (.mul (.num 6 1) (.add (.neg (.num 3 1)) (.mul (.num 2 1) (.var 2)))) (.sqrt (.div (.mul (.var 2) (.add (.neg (.num 1 1)) (.mul (.num 2 1) (.var 2)))) (.mul (.add (.add (.num 3 1) (.mul (.num 5 1) (.var 1))) (.mul (.num 2 1) (.pow (.var 1) 2))) (.add (.add (.add (.num 2 1) (.mul (.num 7 1) (.var 2))) (.mul (.num 7 1) (.pow (.var 2) 2))) (.mul (.num 2 1) (.pow (.var 2) 3))))))) (.add (.add (.num 3 1) (.mul (.num 5 1) (.var 2))) (.mul (.num 2 1) (.pow (.var 2) 2)))))),
  .div (.sub (.num 2 1) (.mul (.var 2) (.add (.num 2 1) (.var 2)))) (.mul (.add (.num 1 1) (.var 2)) (.sqrt (.mul (.var 2) (.add (.num 2 1) (.var 2))))),
  .neg (.div (.mul (.sqrt (.num 2 1)) (.add (.add (.add (.mul (.num 30 1) (.sqrt (.mul (.mul (.var 2) (.add (.num 1 1) (.var 2))) (.add (.num 3 1) (.mul (.num 2 1) (.var 2)))))) (.mul (.mul (.num 47 1) (.var 2)) (.sqrt (.mul (.mul (.var 2) (.add (.num 1 1) (.var 2))) (.add (.num 3 1) (.mul (.num 2 1) (.var 2))))))) (.mul (.num 24 1) (.sqrt (.mul (.mul (.pow (.var 2) 5) (.add (.num 1 1) (.var 2))) (.add (.num 3 1) (.mul (.num 2 1) (.var 2))))))) (.mul (.num 4 1) (.sqrt (.mul (.mul (.pow (.var 2) 7) (.add (.num 1 1) (.var 2))) (.add (.num 3 1) (.mul (.num 2 1) (.var 2)))))))) (.mul (.mul (.mul (.sqrt (.var 2)) (.add (.num 1 1) (.var 2))) (.hpow (.mul (.add (.num 2 1) (.var 2)) (.add (.num 3 1) (.mul (.num 2 1) (.var 2)))) 1)) (.add (.num 5 1) (.mul (.num 2 1) (.var 2))))),
  .div (.mul (.sqrt (.div (.add (.num 2 1) (.mul (.num 4 1) (.var 2))) (.mul (.mul (.mul (.mul (.add (.num 1 1) (.var 1)) (.pow (.add (.num 1 1) (.mul (.num 2 1) (.var 1))) 2)) (.var 2)) (.pow (.add (.num 1 1) (.var 2)) 2)) (.pow (.add (.add (.num 6 1) (.mul (.num 7 1) (.var 2))) (.mul (.num 2 1) (.pow (.var 2) 2))) 3)))) (.add (.neg (.mul (.mul (.var 2) (.sqrt (.mul (.mul (.mul (.mul (.add (.num 1 1) (.var 1)) (.var 2)) (.add (.num 1 1) (.var 2))) (.add (.num 1 1) (.mul (.num 2 1) (.var 2)))) (.add (.num 5 1) (.mul (.num 2 1) (.var 2)))))) (.add (.num 11 1) (.mul (.num 2 1) (.var 2))))) (.mul (.num 6 1) (.sub (.sqrt (.div (.mul (.mul (.mul (.mul (.add (.num 1 1) (.var 1)) (.pow (.sub (.num 1 1) (.mul (.num 2 1) (.var 2))) 2)) (.var 2)) (.add (.num 1 1) (.var 2))) (.add (.num 5 1) (.mul (.num 2 1) (.var 2)))) (.add (.num 1 1) (.mul (.num 2 1) (.var 2))))) (.mul (.num 4 1) (.sqrt (.mul (.mul (.mul (.mul (.add (.num 1 1) (.var 1)) (.var 2)) (.add (.num 1 1) (.var 2))) (.add (.num 1 1) (.mul (.num 2 1) (.var 2)))) (.add (.num 5 1) (.mul (.num 2 1) (.var 2)))))))))) (.add (.num 5 1) (.mul (.num 2 1) (.var 2))),
  .div (.mul (.sqrt (.div (.add (.num 1 1) (.mul (.num 2 1) (.var 2))) (.mul (.mul (.add (.add (.num 1 1) (.mul (.num 3 1) (.var 1))) (.mul (.num 2 1) (.pow (.var 1) 2))) (.pow (.add (.add (.num 6 1) (.mul (.num 7 1) (.var 2))) (.mul (.num 2 1) (.pow (.var 2) 2))) 2)) (.add (.add (.add (.num 15 1) (.mul (.num 26 1) (.var 2))) (.mul (.num 13 1) (.pow (.var 2) 2))) (.mul (.num 2 1) (.pow (.var 2) 3)))))) (.sub (.add (.mul (.num 3 1) (.add (.add (.mul (.num 10 1) (.sqrt (.div (.mul (.mul (.mul (.add (.num 1 1) (.var 1)) (.add (.num 1 1) (.mul (.num 2 1) (.var 1)))) (.var 2)) (.add (.num 5 1) (.mul (.num 2 1) (.var 2)))) (.mul (.add (.num 2 1) (.var 2)) (.add (.num 1 1) (.mul (.num 2 1) (.var 2))))))) (.mul (.num 18 1) (.sqrt (.div (.mul (.mul (.mul (.mul (.add (.num 1 1) (.var 1)) (.add (.num 1 1) (.mul (.num 2 1) (.var 1)))) (.var 2)) (.add (.num 1 1) (.mul (.num 2 1) (.var 2)))) (.add (.num 5 1) (.mul (.num 2 1) (.var 2)))) (.add (.num 2 1) (.var 2)))))) (.sqrt (.mul (.mul (.mul (.mul (.mul (.add (.num 1 1) (.var 1)) (.add (.num 1 1) (.mul (.num 2 1) (.var 1)))) (.var 2)) (.add (.num 2 1) (.var 2))) (.add (.num 1 1) (.mul (.num 2 1) (.var 2)))) (.add (.num 5 1) (.mul (.num 2 1) (.var 2))))))) (.mul (.var 2) (.add (.add (.mul (.num 38 1) (.sqrt (.div (.mul (.mul (.mul (.mul (.add (.num 1 1) (.var 1)) (.add (.num 1 1) (.mul (.num 2 1) (.var 1)))) (.var 2)) (.add (.num 1 1) (.mul (.num 2 1) (.var 2)))) (.add (.num 5 1) (.mul (.num 2 1) (.var 2)))) (.add (.num 2 1) (.var 2))))) (.mul (.num 5 1) (.sqrt (.mul (.mul (.mul (.mul (.mul (.add (.num 1 1) (.var 1)) (.add (.num 1 1) (.mul (.num 2 1) (.var 1)))) (.var 2)) (.add (.num 2 1) (.var 2))) (.add (.num 1 1) (.mul (.num 2 1) (.var 2)))) (.add (.num 5 1) (.mul (.num 2 1) (.var 2))))))) (.mul (.mul (.num 2 1) (.var 2)) (.add (.mul (.num 4 1) (.sqrt (.div (.mul (.mul (.mul (.mul (.add (.num 1 1) (.var 1)) (.add (.num 1 1) (.mul (.num 2 1) (.var 1)))) (.var 2)) (.add (.num 1 1) (.mul (.num 2 1) (.var 2)))) (.add (.num 5 1) (.mul (.num 2 1) (.var 2)))) (.add (.num 2 1) (.var 2))))) (.sqrt (.mul (.mul (.mul (.mul (.mul (.add (.num 1 1) (.var 1)) (.add (.num 1 1) (.mul (.num 2 1) (.var 1)))) (.var 2)) (.add (.num 2 1) (.var 2))) (.add (.num 1 1) (.mul (.num 2 1) (.var 2)))) (.add (.num 5 1) (.mul (.num 2 1) (.var 2)))))))))) (.mul (.mul (.num 2 1) (.var 1)) (.add (.mul (.num 3 1) (.add (.add (.mul (.num 18 1) (.sqrt (.div (.mul (.mul (.mul (.add (.num 1 1) (.var 1)) (.var 2)) (.add (.num 1 1) (.mul (.num 2 1) (.var 2)))) (.add (.num 5 1) (.mul (.num 2 1) (.var 2)))) (.mul (.add (.num 1 1) (.mul (.num 2 1) (.var 1))) (.add (.num 2 1) (.var 2)))))) (.sqrt (.div (.mul (.mul (.mul (.mul (.add (.num 1 1) (.var 1)) (.var 2)) (.add (.num 2 1) (.var 2))) (.add (.num 1 1) (.mul (.num 2 1) (.var 2)))) (.add (.num 5 1) (.mul (.num 2 1) (.var 2)))) (.add (.num 1 1) (.mul (.num 2 1) (.var 1)))))) (.mul (.num 10 1) (.sqrt (.div (.mul (.mul (.add (.num 1 1) (.var 1)) (.var 2)) (.add (.num 5 1) (.mul (.num 2 1) (.var 2)))) (.mul (.add (.num 1 1) (.mul (.num 2 1) (.var 1))) (.add (.add (.num 2 1) (.mul (.num 5 1) (.var 2))) (.mul (.num 2 1) (.pow (.var 2) 2))))))))) (.mul (.var 2) (.add (.add (.mul (.num 38 1) (.sqrt (.div (.mul (.mul (.mul (.add (.num 1 1) (.var 1)) (.var 2)) (.add (.num 1 1) (.mul (.num 2 1) (.var 2)))) (.add (.num 5 1) (.mul (.num 2 1) (.var 2)))) (.mul (.add (.num 1 1) (.mul (.num 2 1) (.var 1))) (.add (.num 2 1) (.var 2)))))) (.mul (.num 5 1) (.sqrt (.div (.mul (.mul (.mul (.mul (.add (.num 1 1) (.var 1)) (.var 2)) (.add (.num 2 1) (.var 2))) (.add (.num 1 1) (.mul (.num 2 1) (.var 2)))) (.add (.num 5 1) (.mul (.num 2 1) (.var 2)))) (.add (.num 1 1) (.mul (.num 2 1) (.var 1))))))) (.mul (.mul (.num 2 1) (.var 2)) (.add (.mul (.num 4 1) (.sqrt (.div (.mul (.mul (.mul (.add (.num 1 1) (.var 1)) (.var 2)) (.add (.num 1 1) (.mul (.num 2 1) (.var 2)))) (.add (.num 5 1) (.mul (.num 2 1) (.var 2)))) (.mul (.add (.num 1 1) (.mul (.num 2 1) (.var 1))) (.add (.num 2 1) (.var 2)))))) (.sqrt (.div (.mul (.mul (.mul (.mul (.add (.num 1 1) (.var 1)) (.var 2)) (.add (.num 2 1) (.var 2))) (.add (.num 1 1) (.mul (.num 2 1) (.var 2)))) (.add (.num 5 1) (.mul (.num 2 1) (.var 2)))) (.add (.num 1 1) (.mul (.num 2 1) (.var 1))))))))))))) (.add (.num 5 1) (.mul (.num 2 1) (.var 2))),
  .neg (.div (.mul (.mul (.add (.num 3 1) (.mul (.num 2 1) (.var 1))) (.sqrt (.div (.add (.num 2 1) (.mul (.num 4 1) (.var 2))) (.mul (.mul (.mul (.mul (.mul (.add (.num 1 1) (.var 1)) (.pow (.add (.num 3 1) (.mul (.num 2 1) (.var 1))) 3)) (.var 2)) (.pow (.add (.num 1 1) (.var 2)) 2)) (.pow (.add (.num 2 1) (.var 2)) 4)) (.pow (.add (.num 3 1) (.mul (.num 2 1) (.var 2))) 3))))) (.add (.mul (.neg (.num 6 1)) (.add (.sqrt (.div (.mul (.mul (.mul (.mul (.mul (.add (.num 1 1) (.var 1)) (.add (.num 3 1) (.mul (.num 2 1) (.var 1)))) (.var 2)) (.add (.num 1 1) (.var 2))) (.add (.num 2 1) (.var 2))) (.add (.num 5 1) (.mul (.num 2 1) (.var 2)))) (.add (.num 1 1) (.mul (.num 2 1) (.var 2))))) (.mul (.num 4 1) (.sqrt (.mul (.mul (.mul (.mul (.mul (.mul (.add (.num 1 1) (.var 1)) (.add (.num 3 1) (.mul (.num 2 1) (.var 1)))) (.var 2)) (.add (.num 1 1) (.var 2))) (.add (.num 2 1) (.var 2))) (.add (.num 1 1) (.mul (.num 2 1) (.var 2)))) (.add (.num 5 1) (.mul (.num 2 1) (.var 2)))))))) (.mul (.var 2) (.sub (.sub (.mul (.num 12 1) (.sqrt (.div (.mul (.mul (.mul (.mul (.mul (.add (.num 1 1) (.var 1)) (.add (.num 3 1) (.mul (.num 2 1) (.var 1)))) (.var 2)) (.add (.num 1 1) (.var 2))) (.add (.num 2 1) (.var 2))) (.add (.num 5 1) (.mul (.num 2 1) (.var 2)))) (.add (.num 1 1) (.mul (.num 2 1) (.var 2)))))) (.mul (.num 11 1) (.sqrt (.mul (.mul (.mul (.mul (.mul (.mul (.add (.num 1 1) (.var 1)) (.add (.num 3 1) (.mul (.num 2 1) (.var 1)))) (.var 2)) (.add (.num 1 1) (.var 2))) (.add (.num 2 1) (.var 2))) (.add (.num 1 1) (.mul (.num 2 1) (.var 2)))) (.add (.num 5 1) (.mul (.num 2 1) (.var 2))))))) (.mul (.mul (.num 2 1) (.var 2)) (.sqrt (.mul (.mul (.mul (.mul (.mul (.mul (.add (.num 1 1) (.var 1)) (.add (.num 3 1) (.mul (.num 2 1) (.var 1)))) (.var 2)) (.add (.num 1 1) (.var 2))) (.add (.num 2 1) (.var 2))) (.add (.num 1 1) (.mul (.num 2 1) (.var 2)))) (.add (.num 5 1) (.mul (.num 2 1) (.var 2)))))))))) (.add (.num 5 1) (.mul (.num 2 1) (.var 2)))),
  .div (.sub (.mul (.neg (.num 6 1)) (.add (.mul (.num 15 1) (.sqrt (.div (.mul (.mul (.mul (.var 2) (.add (.num 1 1) (.var 2))) (.add (.num 2 1) (.var 2))) (.add (.num 3 1) (.mul (.num 2 1) (.var 2)))) (.add (.num 3 1) (.var 2))))) (.mul (.num 17 1) (.sqrt (.div (.mul (.mul (.mul (.pow (.var 2) 5) (.add (.num 1 1) (.var 2))) (.add (.num 2 1) (.var 2))) (.add (.num 3 1) (.mul (.num 2 1) (.var 2)))) (.add (.num 3 1) (.var 2))))))) (.mul (.var 2) (.add (.mul (.num 171 1) (.sqrt (.div (.mul (.mul (.mul (.var 2) (.add (.num 1 1) (.var 2))) (.add (.num 2 1) (.var 2))) (.add (.num 3 1) (.mul (.num 2 1) (.var 2)))) (.add (.num 3 1) (.var 2))))) (.mul (.mul (.var 2) (.sqrt (.div (.mul (.mul (.mul (.mul (.var 2) (.add (.num 1 1) (.var 2))) (.add (.num 2 1) (.var 2))) (.pow (.add (.num 1 1) (.mul (.num 2 1) (.var 2))) 2)) (.add (.num 3 1) (.mul (.num 2 1) (.var 2)))) (.add (.num 3 1) (.var 2))))) (.add (.num 17 1) (.mul (.num 2 1) (.var 2))))))) (.mul (.mul (.mul (.add (.num 1 1) (.var 2)) (.pow (.add (.num 2 1) (.var 2)) 2)) (.hpow (.add (.num 3 1) (.mul (.num 2 1) (.var 2))) 1)) (.add (.num 5 1) (.mul (.num 2 1) (.var 2)))),
  .div (.sub (.num 1 1) (.mul (.num 2 1) (.var 2))) (.mul (.var 2) (.sqrt (.add (.neg (.num 1 1)) (.mul (.num 4 1) (.pow (.var 2) 2))))),
  .neg (.div (.num 1 1) (.add (.num 1 1) (.var 2))),
  .neg (.div (.add (.add (.neg (.num 1 1)) (.var 2)) (.pow (.var 2) 2)) (.mul (.mul (.add (.num 1 1) (.mul (.num 2 1) (.var 1))) (.var 2)) (.add (.num 1 1) (.var 2)))),
  .neg (.div (.num 1 1) (.add (.add (.add (.num 1 1) (.mul (.num 2 1) (.var 1))) (.var 2)) (.mul (.mul (.num 2 1) (.var 1)) (.var 2)))),
  .div (.sqrt (.add (.num 1 1) (.div (.num 2 1) (.add (.num 1 1) (.mul (.num 2 1) (.var 2)))))) (.add (.num 1 1) (.var 2)),
  .div (.add (.mul (.num 2 1) (.sqrt (.mul (.mul (.add (.num 1 1) (.mul (.num 2 1) (.var 1))) (.var 2)) (.add (.num 1 1) (.mul (.num 2 1) (.var 2)))))) (.mul (.sub (.num 1 1) (.mul (.num 2 1) (.var 2))) (.sqrt (.div (.add (.var 2) (.mul (.mul (.num 2 1) (.var 1)) (.var 2))) (.add (.num 1 1) (.mul (.num 2 1) (.var 2))))))) (.mul (.mul (.hpow (.add (.num 1 1) (.mul (.num 2 1) (.var 1))) 1) (.add (.num 1 1) (.var 2))) (.sqrt (.mul (.var 2) (.add (.num 3 1) (.mul (.num 2 1) (.var 2)))))),
  .neg (.div (.sqrt (.mul (.var 2) (.add (.num 2 1) (.var 2)))) (.add (.add (.add (.num 1 1) (.mul (.num 2 1) (.var 1))) (.var 2)) (.mul (.mul (.num 2 1) (.var 1)) (.var 2)))),
  .div (.mul (.sqrt (.add (.num 1 1) (.mul (.num 2 1) (.var 1)))) (.sub (.add (.add (.neg (.mul (.mul (.add (.neg (.num 1 1)) (.var 2)) (.sqrt (.div (.mul (.var 1) (.var 2)) (.add (.num 1 1) (.mul (.num 2 1) (.var 1)))))) (.hpow (.mul (.add (.num 1 1) (.var 1)) (.add (.num 1 1) (.var 2))) 1))) (.mul (.var 2) (.sqrt (.div (.mul (.mul (.mul (.var 1) (.pow (.add (.num 1 1) (.var 1)) 3)) (.var 2)) (.pow (.add (.num 1 1) (.var 2)) 3)) (.pow (.add (.num 1 1) (.mul (.num 2 1) (.var 1))) 3))))) (.mul (.var 2) (.sqrt (.div (.mul (.mul (.mul (.var 1) (.pow (.add (.num 1 1) (.var 1)) 3)) (.var 2)) (.pow (.add (.num 1 1) (.var 2)) 3)) (.add (.num 1 1) (.mul (.num 2 1) (.var 1))))))) (.div (.mul (.mul (.add (.num 1 1) (.var 1)) (.sqrt (.mul (.mul (.mul (.var 1) (.add (.num 1 1) (.var 1))) (.var 2)) (.add (.num 1 1) (.var 2))))) (.add (.neg (.num 1 1)) (.pow (.var 2) 2))) (.hpow (.add (.num 1 1) (.mul (.num 2 1) (.var 1))) 1)))) (.mul (.pow (.add (.num 1 1) (.var 1)) 2) (.hpow (.mul (.var 2) (.add (.num 1 1) (.var 2))) 1)),
  .neg (.div (.mul (.mul (.sqrt (.add (.num 1 1) (.mul (.num 2 1) (.var 1)))) (.add (.num 1 1) (.mul (.num 2 1) (.var 2)))) (.sub (.sub (.sub (.sub (.div (.mul (.mul (.mul (.num 4 1) (.add (.num 1 1) (.var 1))) (.var 2)) (.sqrt (.mul (.mul (.var 1) (.add (.num 1 1) (.var 1))) (.add (.num 3 1) (.mul (.num 2 1) (.var 2)))))) (.hpow (.mul (.add (.num 1 1) (.mul (.num 2 1) (.var 1))) (.add (.num 1 1) (.mul (.num 2 1) (.var 2)))) 1)) (.sqrt (.div (.mul (.mul (.var 1) (.add (.num 1 1) (.var 1))) (.add (.num 3 1) (.mul (.num 2 1) (.var 2)))) (.mul (.pow (.add (.num 1 1) (.mul (.num 2 1) (.var 1))) 3) (.pow (.add (.num 1 1) (.mul (.num 2 1) (.var 2))) 3))))) (.sqrt (.div (.mul (.mul (.var 1) (.add (.num 1 1) (.var 1))) (.add (.num 3 1) (.mul (.num 2 1) (.var 2)))) (.mul (.add (.num 1 1) (.mul (.num 2 1) (.var 1))) (.pow (.add (.num 1 1) (.mul (.num 2 1) (.var 2))) 3))))) (.mul (.num 2 1) (.sqrt (.div (.mul (.mul (.var 1) (.add (.num 1 1) (.var 1))) (.add (.num 3 1) (.mul (.num 2 1) (.var 2)))) (.mul (.pow (.add (.num 1 1) (.mul (.num 2 1) (.var 1))) 3) (.add (.num 1 1) (.mul (.num 2 1) (.var 2)))))))) (.mul (.num 2 1) (.sqrt (.div (.mul (.mul (.var 1) (.add (.num 1 1) (.var 1))) (.add (.num 3 1) (.mul (.num 2 1) (.var 2)))) (.mul (.add (.num 1 1) (.mul (.num 2 1) (.var 1))) (.add (.num 1 1) (.mul (.num 2 1) (.var 2))))))))) (.mul (.mul (.add (.num 1 1) (.var 1)) (.add (.num 1 1) (.var 2))) (.add (.num 3 1) (.mul (.num 2 1) (.var 2))))),
  .div (.mul (.neg (.num 2 1)) (.sqrt (.mul (.mul (.mul (.var 1) (.add (.num 1 1) (.var 1))) (.var 2)) (.add (.num 2 1) (.var 2))))) (.add (.add (.add (.num 1 1) (.mul (.num 2 1) (.var 1))) (.var 2)) (.mul (.mul (.num 2 1) (.var 1)) (.var 2))),
  .div (.add (.neg (.num 1 1)) (.mul (.num 2 1) (.var 2))) (.mul (.var 2) (.sqrt (.add (.neg (.num 1 1)) (.mul (.num 4 1) (.pow (.var 2) 2))))),
  .sqrt (.div (.add (.neg (.num 1 1)) (.pow (.var 2) 2)) (.mul (.add (.var 1) (.mul (.num 2 1) (.pow (.var 1) 2))) (.pow (.var 2) 2))),
  .div (.add (.neg (.num 1 1)) (.mul (.num 2 1) (.var 2))) (.mul (.var 2) (.sqrt (.mul (.mul (.var 1) (.add (.num 1 1) (.mul (.num 2 1) (.var 1)))) (.add (.neg (.num 1 1)) (.mul (.num 4 1) (.pow (.var 2) 2)))))),
  .div (.add (.add (.neg (.num 1 1)) (.var 2)) (.pow (.var 2) 2)) (.mul (.sqrt (.mul (.var 1) (.add (.num 1 1) (.mul (.num 2 1) (.var 1))))) (.add (.var 2) (.pow (.var 2) 2))),
  .div (.num 1 1) (.mul (.sqrt (.mul (.var 1) (.add (.num 1 1) (.mul (.num 2 1) (.var 1))))) (.add (.num 1 1) (.var 2))),
  .neg (.div (.sqrt (.add (.num 1 1) (.div (.num 2 1) (.add (.num 1 1) (.mul (.num 2 1) (.var 2)))))) (.add (.num 1 1) (.var 2))),
  .div (.sqrt (.mul (.var 2) (.add (.num 2 1) (.var 2)))) (.add (.num 1 1) (.var 2)),
  .div (.add (.mul (.neg (.num 2 1)) (.sqrt (.mul (.mul (.add (.num 1 1) (.mul (.num 2 1) (.var 1))) (.var 2)) (.add (.num 1 1) (.mul (.num 2 1) (.var 2)))))) (.mul (.add (.neg (.num 1 1)) (.mul (.num 2 1) (.var 2))) (.sqrt (.div (.add (.var 2) (.mul (.mul (.num 2 1) (.var 1)) (.var 2))) (.add (.num 1 1) (.mul (.num 2 1) (.var 2))))))) (.mul (.mul (.add (.num 1 1) (.mul (.num 2 1) (.var 1))) (.add (.num 1 1) (.var 2))) (.sqrt (.mul (.mul (.var 1) (.var 2)) (.add (.num 3 1) (.mul (.num 2 1) (.var 2)))))),
  .div (.mul (.var 2) (.add (.num 2 1) (.var 2))) (.mul (.add (.num 1 1) (.var 2)) (.sqrt (.mul (.mul (.mul (.var 1) (.add (.num 1 1) (.mul (.num 2 1) (.var 1)))) (.var 2)) (.add (.num 2 1) (.var 2))))),
  .mul (.sqrt (.div (.add (.num 1 1) (.var 2)) (.add (.var 2) (.mul (.var 1) (.var 2))))) (.add (.sub (.sqrt (.div (.mul (.sub (.num 2 1) (.div (.num 1 1) (.var 1))) (.add (.neg (.num 1 1)) (.var 2))) (.add (.var 2) (.mul (.mul (.num 2 1) (.var 1)) (.var 2))))) (.sqrt (.div (.sub (.var 1) (.mul (.var 1) (.var 2))) (.sub (.var 2) (.mul (.mul (.num 4 1) (.pow (.var 1) 2)) (.var 2)))))) (.mul (.mul (.num 2 1) (.var 1)) (.sqrt (.div (.sub (.var 1) (.mul (.var 1) (.var 2))) (.sub (.var 2) (.mul (.mul (.num 4 1) (.pow (.var 1) 2)) (.var 2))))))),
  .mul (.sqrt (.div (.add (.num 1 1) (.var 2)) (.mul (.add (.num 1 1) (.var 1)) (.add (.var 2) (.mul (.num 2 1) (.pow (.var 2) 2)))))) (.add (.add (.neg (.sqrt (.div (.mul (.var 1) (.add (.neg (.num 1 1)) (.mul (.num 2 1) (.var 2)))) (.mul (.mul (.add (.neg (.num 1 1)) (.mul (.num 4 1) (.pow (.var 1) 2))) (.var 2)) (.add (.num 1 1) (.var 2)))))) (.mul (.mul (.num 2 1) (.var 1)) (.sqrt (.div (.mul (.var 1) (.add (.neg (.num 1 1)) (.mul (.num 2 1) (.var 2)))) (.mul (.mul (.add (.neg (.num 1 1)) (.mul (.num 4 1) (.pow (.var 1) 2))) (.var 2)) (.add (.num 1 1) (.var 2))))))) (.sqrt (.div (.mul (.sub (.num 2 1) (.div (.num 1 1) (.var 1))) (.add (.neg (.num 1 1)) (.mul (.num 2 1) (.var 2)))) (.mul (.add (.num 1 1) (.mul (.num 2 1) (.var 1))) (.add (.var 2) (.pow (.var 2) 2)))))),
  .sqrt (.div (.add (.neg (.num 1 1)) (.pow (.var 2) 2)) (.mul (.add (.add (.num 1 1) (.mul (.num 3 1) (.var 1))) (.mul (.num 2 1) (.pow (.var 1) 2))) (.pow (.var 2) 2))),
  .sqrt (.div (.add (.neg (.num 1 1)) (.mul (.num 2 1) (.var 2))) (.mul (.mul (.add (.add (.num 1 1) (.mul (.num 3 1) (.var 1))) (.mul (.num 2 1) (.pow (.var 1) 2))) (.pow (.var 2) 2)) (.add (.num 1 1) (.mul (.num 2 1) (.var 2))))),
  .div (.mul (.add (.num 1 1) (.mul (.num 2 1) (.var 1))) (.add (.sub (.sub (.add (.add (.add (.sub (.neg (.sqrt (.mul (.mul (.mul (.var 1) (.add (.add (.neg (.num 1 1)) (.var 1)) (.mul (.num 2 1) (.pow (.var 1) 2)))) (.var 2)) (.add (.num 1 1) (.var 2))))) (.sqrt (.mul (.mul (.mul (.pow (.var 1) 3) (.add (.add (.neg (.num 1 1)) (.var 1)) (.mul (.num 2 1) (.pow (.var 1) 2)))) (.var 2)) (.add (.num 1 1) (.var 2))))) (.sqrt (.mul (.mul (.mul (.var 1) (.add (.add (.neg (.num 1 1)) (.var 1)) (.mul (.num 2 1) (.pow (.var 1) 2)))) (.pow (.var 2) 5)) (.add (.num 1 1) (.var 2))))) (.sqrt (.mul (.mul (.mul (.pow (.var 1) 3) (.add (.add (.neg (.num 1 1)) (.var 1)) (.mul (.num 2 1) (.pow (.var 1) 2)))) (.pow (.var 2) 5)) (.add (.num 1 1) (.var 2))))) (.mul (.mul (.var 1) (.var 2)) (.sqrt (.div (.mul (.mul (.mul (.var 1) (.pow (.add (.num 1 1) (.var 1)) 3)) (.var 2)) (.pow (.add (.num 1 1) (.var 2)) 3)) (.add (.neg (.num 1 1)) (.mul (.num 2 1) (.var 1))))))) (.mul (.var 2) (.sqrt (.mul (.mul (.mul (.mul (.var 1) (.pow (.add (.num 1 1) (.var 1)) 3)) (.add (.neg (.num 1 1)) (.mul (.num 2 1) (.var 1)))) (.var 2)) (.pow (.add (.num 1 1) (.var 2)) 3))))) (.mul (.var 1) (.sqrt (.div (.mul (.mul (.mul (.mul (.var 1) (.pow (.add (.num 1 1) (.var 1)) 3)) (.pow (.add (.neg (.num 1 1)) (.var 2)) 2)) (.var 2)) (.pow (.add (.num 1 1) (.var 2)) 3)) (.add (.neg (.num 1 1)) (.mul (.num 2 1) (.var 1))))))) (.mul (.mul (.num 2 1) (.pow (.var 1) 2)) (.add (.neg (.mul (.var 2) (.sqrt (.div (.mul (.mul (.mul (.var 1) (.pow (.add (.num 1 1) (.var 1)) 3)) (.var 2)) (.pow (.add (.num 1 1) (.var 2)) 3)) (.add (.neg (.num 1 1)) (.mul (.num 2 1) (.var 1))))))) (.sqrt (.div (.mul (.mul (.mul (.mul (.var 1) (.pow (.add (.num 1 1) (.var 1)) 3)) (.pow (.add (.neg (.num 1 1)) (.var 2)) 2)) (.var 2)) (.pow (.add (.num 1 1) (.var 2)) 3)) (.add (.neg (.num 1 1)) (.mul (.num 2 1) (.var 1))))))))) (.mul (.mul (.var 1) (.pow (.add (.num 1 1) (.var 1)) 2)) (.hpow (.mul (.mul (.add (.num 1 1) (.mul (.num 2 1) (.var 1))) (.var 2)) (.add (.num 1 1) (.var 2))) 1)),
  .div (.add (.add (.sub (.sub (.add (.add (.sub (.add (.neg (.mul (.mul (.mul (.var 1) (.add (.num 1 1) (.var 1))) (.add (.num 1 1) (.var 2))) (.sqrt (.mul (.mul (.mul (.mul (.mul (.var 1) (.add (.num 1 1) (.var 1))) (.add (.num 1 1) (.mul (.num 2 1) (.var 1)))) (.pow (.sub (.num 1 1) (.mul (.num 2 1) (.var 2))) 2)) (.var 2)) (.pow (.add (.num 1 1) (.var 2)) 3))))) (.mul (.mul (.mul (.mul (.num 2 1) (.pow (.var 1) 2)) (.add (.num 1 1) (.var 1))) (.add (.num 1 1) (.var 2))) (.sqrt (.mul (.mul (.mul (.mul (.mul (.var 1) (.add (.num 1 1) (.var 1))) (.add (.num 1 1) (.mul (.num 2 1) (.var 1)))) (.pow (.sub (.num 1 1) (.mul (.num 2 1) (.var 2))) 2)) (.var 2)) (.pow (.add (.num 1 1) (.var 2)) 3))))) (.mul (.mul (.add (.num 1 1) (.var 1)) (.add (.num 1 1) (.var 2))) (.sqrt (.mul (.mul (.mul (.mul (.mul (.pow (.sub (.num 1 1) (.mul (.num 2 1) (.var 1))) 2) (.var 1)) (.add (.num 1 1) (.var 1))) (.add (.num 1 1) (.mul (.num 2 1) (.var 1)))) (.pow (.var 2) 3)) (.pow (.add (.num 1 1) (.var 2)) 3))))) (.mul (.mul (.mul (.add (.num 1 1) (.var 1)) (.var 2)) (.add (.num 1 1) (.var 2))) (.sqrt (.mul (.mul (.mul (.mul (.mul (.pow (.sub (.num 1 1) (.mul (.num 2 1) (.var 1))) 2) (.var 1)) (.add (.num 1 1) (.var 1))) (.add (.num 1 1) (.mul (.num 2 1) (.var 1)))) (.pow (.var 2) 3)) (.pow (.add (.num 1 1) (.var 2)) 3))))) (.mul (.var 1) (.sqrt (.mul (.mul (.mul (.mul (.var 1) (.pow (.add (.num 1 1) (.var 1)) 3)) (.add (.num 1 1) (.mul (.num 2 1) (.var 1)))) (.pow (.var 2) 3)) (.pow (.add (.num 1 1) (.var 2)) 5))))) (.mul (.mul (.num 2 1) (.pow (.var 1) 2)) (.sqrt (.mul (.mul (.mul (.mul (.var 1) (.pow (.add (.num 1 1) (.var 1)) 3)) (.add (.num 1 1) (.mul (.num 2 1) (.var 1)))) (.pow (.var 2) 3)) (.pow (.add (.num 1 1) (.var 2)) 5))))) (.mul (.mul (.var 1) (.var 2)) (.sqrt (.mul (.mul (.mul (.mul (.var 1) (.pow (.add (.num 1 1) (.var 1)) 3)) (.add (.num 1 1) (.mul (.num 2 1) (.var 1)))) (.pow (.var 2) 3)) (.pow (.add (.num 1 1) (.var 2)) 5))))) (.mul (.mul (.mul (.num 2 1) (.pow (.var 1) 2)) (.var 2)) (.sqrt (.mul (.mul (.mul (.mul (.var 1) (.pow (.add (.num 1 1) (.var 1)) 3)) (.add (.num 1 1) (.mul (.num 2 1) (.var 1)))) (.pow (.var 2) 3)) (.pow (.add (.num 1 1) (.var 2)) 5))))) (.mul (.mul (.mul (.mul (.add (.num 1 1) (.var 1)) (.add (.neg (.num 1 1)) (.mul (.num 2 1) (.var 1)))) (.sqrt (.mul (.mul (.mul (.var 1) (.add (.num 1 1) (.var 1))) (.add (.num 1 1) (.mul (.num 2 1) (.var 1)))) (.var 2)))) (.hpow (.add (.num 1 1) (.var 2)) 2)) (.add (.neg (.num 1 1)) (.mul (.num 2 1) (.var 2))))) (.mul (.mul (.mul (.mul (.mul (.var 1) (.pow (.add (.num 1 1) (.var 1)) 2)) (.sqrt (.add (.neg (.num 1 1)) (.mul (.num 2 1) (.var 1))))) (.add (.num 1 1) (.mul (.num 2 1) (.var 1)))) (.hpow (.var 2) 1)) (.hpow (.add (.num 1 1) (.var 2)) 3)),
  .div (.add (.add (.neg (.sqrt (.div (.mul (.mul (.pow (.var 1) 3) (.add (.num 1 1) (.var 1))) (.add (.num 1 1) (.var 2))) (.add (.neg (.num 1 1)) (.mul (.num 2 1) (.var 1)))))) (.mul (.num 2 1) (.sqrt (.div (.mul (.mul (.pow (.var 1) 5) (.add (.num 1 1) (.var 1))) (.add (.num 1 1) (.var 2))) (.add (.neg (.num 1 1)) (.mul (.num 2 1) (.var 1))))))) (.sqrt (.mul (.mul (.mul (.var 1) (.add (.num 1 1) (.var 1))) (.add (.neg (.num 1 1)) (.mul (.num 2 1) (.var 1)))) (.add (.num 1 1) (.var 2))))) (.mul (.mul (.mul (.var 1) (.add (.num 1 1) (.var 1))) (.sqrt (.add (.num 1 1) (.mul (.num 2 1) (.var 1))))) (.hpow (.add (.num 1 1) (.var 2)) 1)),
  .neg (.div (.num 1 1) (.mul (.sqrt (.mul (.add (.num 1 1) (.var 1)) (.add (.num 1 1) (.mul (.num 2 1) (.var 1))))) (.var 2))),
  .div (.add (.add (.neg (.num 1 1)) (.var 2)) (.pow (.var 2) 2)) (.mul (.sqrt (.add (.add (.num 1 1) (.mul (.num 3 1) (.var 1))) (.mul (.num 2 1) (.pow (.var 1) 2)))) (.add (.var 2) (.pow (.var 2) 2))),
  .div (.num 1 1) (.mul (.sqrt (.mul (.add (.num 1 1) (.var 1)) (.add (.num 1 1) (.mul (.num 2 1) (.var 1))))) (.add (.num 1 1) (.var 2))),
  .neg (.div (.mul (.mul (.add (.num 1 1) (.var 1)) (.add (.neg (.num 1 1)) (.mul (.num 2 1) (.var 1)))) (.add (.num 3 1) (.mul (.num 2 1) (.var 2)))) (.mul (.add (.num 1 1) (.var 2)) (.sqrt (.mul (.mul (.mul (.mul (.var 1) (.add (.num 1 1) (.var 1))) (.add (.neg (.num 1 1)) (.mul (.num 2 1) (.var 1)))) (.add (.num 1 1) (.mul (.num 2 1) (.var 1)))) (.add (.num 3 1) (.mul (.mul (.num 4 1) (.var 2)) (.add (.num 2 1) (.var 2)))))))),
  .div (.mul (.sqrt (.div (.add (.num 1 1) (.var 2)) (.mul (.add (.add (.num 1 1) (.mul (.num 3 1) (.var 1))) (.mul (.num 2 1) (.pow (.var 1) 2))) (.add (.num 2 1) (.var 2))))) (.add (.add (.add (.add (.add (.sub (.mul (.neg (.num 5 1)) (.sqrt (.div (.mul (.var 1) (.var 2)) (.mul (.add (.neg (.num 1 1)) (.mul (.num 2 1) (.var 1))) (.add (.num 1 1) (.var 2)))))) (.mul (.mul (.num 4 1) (.var 2)) (.sqrt (.div (.mul (.var 1) (.var 2)) (.mul (.add (.neg (.num 1 1)) (.mul (.num 2 1) (.var 1))) (.add (.num 1 1) (.var 2))))))) (.mul (.mul (.mul (.num 2 1) (.pow (.var 1) 2)) (.sqrt (.div (.mul (.var 2) (.add (.num 1 1) (.var 2))) (.mul (.var 1) (.add (.neg (.num 1 1)) (.mul (.num 2 1) (.var 1))))))) (.add (.num 1 1) (.mul (.num 2 1) (.var 2))))) (.mul (.sqrt (.div (.mul (.mul (.add (.neg (.num 1 1)) (.mul (.num 2 1) (.var 1))) (.var 2)) (.add (.num 1 1) (.var 2))) (.var 1))) (.add (.num 1 1) (.mul (.num 2 1) (.var 2))))) (.mul (.num 5 1) (.sqrt (.neg (.div (.sub (.var 2) (.mul (.mul (.num 2 1) (.var 1)) (.var 2))) (.add (.var 1) (.mul (.var 1) (.var 2)))))))) (.mul (.mul (.num 4 1) (.var 2)) (.sqrt (.neg (.div (.sub (.var 2) (.mul (.mul (.num 2 1) (.var 1)) (.var 2))) (.add (.var 1) (.mul (.var 1) (.var 2)))))))) (.mul (.var 1) (.sub (.add (.mul (.num 6 1) (.sqrt (.div (.mul (.var 1) (.var 2)) (.mul (.add (.neg (.num 1 1)) (.mul (.num 2 1) (.var 1))) (.add (.num 1 1) (.var 2)))))) (.mul (.mul (.num 4 1) (.sqrt (.div (.mul (.var 1) (.var 2)) (.mul (.add (.neg (.num 1 1)) (.mul (.num 2 1) (.var 1))) (.add (.num 1 1) (.var 2)))))) (.add (.num 1 1) (.mul (.num 2 1) (.var 2))))) (.mul (.sqrt (.div (.mul (.var 2) (.add (.num 1 1) (.var 2))) (.mul (.var 1) (.add (.neg (.num 1 1)) (.mul (.num 2 1) (.var 1)))))) (.add (.num 1 1) (.mul (.num 2 1) (.var 2)))))))) (.add (.add (.num 3 1) (.mul (.num 5 1) (.var 2))) (.mul (.num 2 1) (.pow (.var 2) 2))),
  .div (.sub (.neg (.num 3 1)) (.mul (.num 2 1) (.var 2))) (.mul (.add (.num 1 1) (.var 2)) (.sqrt (.mul (.mul (.add (.num 1 1) (.var 1)) (.add (.num 1 1) (.mul (.num 2 1) (.var 1)))) (.add (.num 3 1) (.mul (.mul (.num 4 1) (.var 2)) (.add (.num 2 1) (.var 2))))))),
  .div (.sqrt (.div (.mul (.var 2) (.add (.num 2 1) (.var 2))) (.add (.add (.num 1 1) (.mul (.num 3 1) (.var 1))) (.mul (.num 2 1) (.pow (.var 1) 2))))) (.add (.num 1 1) (.var 2)),
  .mul (.sqrt (.div (.add (.num 1 1) (.var 2)) (.add (.add (.mul (.num 3 1) (.var 2)) (.mul (.mul (.num 5 1) (.var 1)) (.var 2))) (.mul (.mul (.num 2 1) (.pow (.var 1) 2)) (.var 2))))) (.add (.add (.sqrt (.div (.mul (.mul (.var 1) (.add (.num 1 1) (.mul (.num 2 1) (.var 1)))) (.add (.neg (.num 1 1)) (.var 2))) (.var 2))) (.sqrt (.div (.mul (.mul (.var 1) (.add (.num 1 1) (.mul (.num 2 1) (.var 1)))) (.add (.neg (.num 1 1)) (.var 2))) (.mul (.pow (.add (.num 1 1) (.var 1)) 2) (.var 2))))) (.sqrt (.div (.mul (.var 1) (.add (.neg (.num 1 1)) (.var 2))) (.mul (.pow (.add (.num 1 1) (.var 1)) 2) (.add (.var 2) (.mul (.mul (.num 2 1) (.var 1)) (.var 2))))))),
  .div (.add (.num 3 1) (.mul (.num 2 1) (.var 1))) (.sqrt (.div (.mul (.mul (.mul (.mul (.add (.num 1 1) (.var 1)) (.add (.num 1 1) (.mul (.num 2 1) (.var 1)))) (.add (.num 3 1) (.mul (.num 2 1) (.var 1)))) (.pow (.var 2) 2)) (.add (.num 1 1) (.mul (.num 2 1) (.var 2)))) (.mul (.var 1) (.add (.neg (.num 1 1)) (.mul (.num 2 1) (.var 2)))))),
  .div (.sub (.neg (.num 3 1)) (.mul (.num 2 1) (.var 1))) (.sqrt (.div (.mul (.mul (.mul (.add (.num 1 1) (.var 1)) (.add (.num 1 1) (.mul (.num 2 1) (.var 1)))) (.add (.num 3 1) (.mul (.num 2 1) (.var 1)))) (.pow (.var 2) 2)) (.var 1))),
  .div (.mul (.sqrt (.div (.mul (.mul (.var 1) (.add (.num 1 1) (.var 1))) (.add (.num 3 1) (.mul (.num 2 1) (.var 1)))) (.add (.num 1 1) (.mul (.num 2 1) (.var 1))))) (.add (.add (.neg (.num 1 1)) (.var 2)) (.pow (.var 2) 2))) (.mul (.mul (.add (.num 1 1) (.var 1)) (.var 2)) (.add (.num 1 1) (.var 2))),
  .div (.sqrt (.sub (.add (.num 1 1) (.div (.num 1 1) (.add (.num 1 1) (.var 1)))) (.div (.num 2 1) (.add (.num 1 1) (.mul (.num 2 1) (.var 1)))))) (.add (.num 1 1) (.var 2)),
  .neg (.div (.mul (.add (.num 3 1) (.mul (.num 2 1) (.var 2))) (.add (.add (.add (.sqrt (.div (.mul (.mul (.var 1) (.add (.num 1 1) (.var 1))) (.add (.num 1 1) (.mul (.num 2 1) (.var 1)))) (.add (.num 1 1) (.var 2)))) (.mul (.num 2 1) (.sqrt (.div (.mul (.mul (.pow (.var 1) 3) (.add (.num 1 1) (.var 1))) (.add (.num 1 1) (.mul (.num 2 1) (.var 1)))) (.add (.num 1 1) (.var 2)))))) (.mul (.num 2 1) (.sqrt (.div (.add (.var 1) (.mul (.num 2 1) (.pow (.var 1) 2))) (.add (.add (.add (.num 1 1) (.var 1)) (.var 2)) (.mul (.var 1) (.var 2))))))) (.mul (.num 2 1) (.sqrt (.div (.add (.pow (.var 1) 3) (.mul (.num 2 1) (.pow (.var 1) 4))) (.add (.add (.add (.num 1 1) (.var 1)) (.var 2)) (.mul (.var 1) (.var 2)))))))) (.mul (.mul (.add (.num 1 1) (.var 1)) (.add (.num 1 1) (.mul (.num 2 1) (.var 1)))) (.sqrt (.mul (.mul (.mul (.add (.num 3 1) (.mul (.num 2 1) (.var 1))) (.add (.num 1 1) (.var 2))) (.add (.num 1 1) (.mul (.num 2 1) (.var 2)))) (.add (.num 3 1) (.mul (.num 2 1) (.var 2))))))),
  .div (.sqrt (.div (.mul (.mul (.mul (.var 1) (.add (.num 3 1) (.mul (.num 2 1) (.var 1)))) (.var 2)) (.add (.num 2 1) (.var 2))) (.add (.add (.num 1 1) (.mul (.num 3 1) (.var 1))) (.mul (.num 2 1) (.pow (.var 1) 2))))) (.add (.num 1 1) (.var 2)),
  .neg (.div (.sqrt (.mul (.add (.neg (.num 2 1)) (.var 2)) (.add (.num 1 1) (.var 2)))) (.mul (.add (.num 1 1) (.mul (.num 2 1) (.var 1))) (.sqrt (.mul (.add (.neg (.num 1 1)) (.var 2)) (.var 2))))),
  .div (.mul (.sqrt (.num 2 1)) (.sub (.num 3 1) (.mul (.num 2 1) (.var 2)))) (.mul (.add (.num 1 1) (.mul (.num 2 1) (.var 1))) (.sqrt (.mul (.mul (.mul (.add (.neg (.num 1 1)) (.var 2)) (.var 2)) (.add (.neg (.num 3 1)) (.mul (.num 2 1) (.var 2)))) (.add (.neg (.num 1 1)) (.mul (.num 2 1) (.var 2)))))),
  .div (.sub (.num 3 1) (.pow (.var 2) 2)) (.sqrt (.mul (.pow (.var 2) 2) (.add (.neg (.num 1 1)) (.pow (.var 2) 2)))),
  .div (.sub (.num 3 1) (.pow (.var 2) 2)) (.mul (.add (.var 2) (.mul (.mul (.num 2 1) (.var 1)) (.var 2))) (.sqrt (.add (.neg (.num 1 1)) (.pow (.var 2) 2)))),
  .neg (.div (.mul (.sqrt (.num 3 1)) (.add (.add (.neg (.num 3 1)) (.var 2)) (.mul (.num 2 1) (.pow (.var 2) 2)))) (.mul (.sqrt (.mul (.mul (.mul (.add (.neg (.num 1 1)) (.var 2)) (.add (.num 1 1) (.var 2))) (.add (.num 1 1) (.mul (.num 2 1) (.var 2)))) (.add (.num 3 1) (.mul (.num 2 1) (.var 2))))) (.add (.var 2) (.mul (.mul (.num 2 1) (.var 1)) (.var 2))))),
  .div (.mul (.sqrt (.num 3 1)) (.add (.add (.neg (.num 3 1)) (.var 2)) (.mul (.num 2 1) (.pow (.var 2) 2)))) (.mul (.var 2) (.sqrt (.mul (.add (.num 1 1) (.var 2)) (.add (.sub (.num 3 1) (.mul (.num 7 1) (.var 2))) (.mul (.num 4 1) (.pow (.var 2) 3)))))),
  .div (.mul (.sqrt (.num 3 1)) (.add (.add (.neg (.num 3 1)) (.var 2)) (.mul (.num 2 1) (.pow (.var 2) 2)))) (.mul (.sqrt (.mul (.mul (.mul (.add (.neg (.num 1 1)) (.var 2)) (.add (.num 1 1) (.var 2))) (.add (.neg (.num 1 1)) (.mul (.num 2 1) (.var 2)))) (.add (.num 3 1) (.mul (.num 2 1) (.var 2))))) (.add (.var 2) (.mul (.mul (.num 2 1) (.var 1)) (.var 2)))),
  .neg (.div (.add (.add (.neg (.num 3 1)) (.var 2)) (.pow (.var 2) 2)) (.mul (.add (.num 1 1) (.var 2)) (.add (.var 2) (.mul (.mul (.num 2 1) (.var 1)) (.var 2))))),
  .neg (.div (.mul (.mul (.mul (.sqrt (.num 3 1)) (.var 2)) (.sqrt (.add (.num 1 1) (.var 2)))) (.add (.mul (.mul (.var 2) (.sqrt (.div (.mul (.add (.num 1 1) (.mul (.num 2 1) (.var 1))) (.add (.num 2 1) (.var 2))) (.add (.neg (.num 1 1)) (.mul (.num 2 1) (.var 2)))))) (.add (.neg (.num 19 1)) (.mul (.mul (.num 4 1) (.var 2)) (.add (.num 3 1) (.var 2))))) (.mul (.num 6 1) (.add (.sqrt (.div (.mul (.add (.num 1 1) (.mul (.num 2 1) (.var 1))) (.add (.num 2 1) (.var 2))) (.add (.neg (.num 1 1)) (.mul (.num 2 1) (.var 2))))) (.mul (.num 2 1) (.sqrt (.mul (.mul (.add (.num 1 1) (.mul (.num 2 1) (.var 1))) (.add (.num 2 1) (.var 2))) (.add (.neg (.num 1 1)) (.mul (.num 2 1) (.var 2)))))))))) (.mul (.add (.num 2 1) (.var 2)) (.hpow (.mul (.mul (.mul (.add (.num 1 1) (.mul (.num 2 1) (.var 1))) (.var 2)) (.add (.num 1 1) (.var 2))) (.add (.num 3 1) (.mul (.num 2 1) (.var 2)))) 1))),
  .neg (.mul (.mul (.sqrt (.num 3 1)) (.sqrt (.add (.num 1 1) (.var 2)))) (.add (.add (.add (.mul (.mul (.mul (.add (.neg (.num 3 1)) (.var 2)) (.var 2)) (.add (.neg (.num 1 1)) (.mul (.num 2 1) (.var 2)))) (.sqrt (.div (.add (.num 1 1) (.mul (.num 2 1) (.var 2))) (.mul (.mul (.mul (.var 2) (.pow (.add (.num 1 1) (.var 2)) 3)) (.pow (.add (.num 3 1) (.mul (.num 2 1) (.var 2))) 2)) (.add (.add (.neg (.num 2 1)) (.mul (.num 3 1) (.var 2))) (.mul (.num 2 1) (.pow (.var 2) 2))))))) (.mul (.num 6 1) (.sqrt (.div (.mul (.pow (.add (.neg (.num 1 1)) (.var 2)) 2) (.add (.neg (.num 1 1)) (.mul (.num 2 1) (.var 2)))) (.mul (.mul (.mul (.var 2) (.pow (.add (.num 1 1) (.var 2)) 3)) (.pow (.add (.num 3 1) (.mul (.num 2 1) (.var 2))) 2)) (.add (.add (.num 2 1) (.mul (.num 5 1) (.var 2))) (.mul (.num 2 1) (.pow (.var 2) 2)))))))) (.mul (.sub (.num 1 1) (.mul (.num 2 1) (.var 2))) (.sqrt (.div (.mul (.var 2) (.add (.num 1 1) (.mul (.num 2 1) (.var 2)))) (.mul (.pow (.add (.num 3 1) (.mul (.num 2 1) (.var 2))) 2) (.add (.add (.add (.neg (.num 2 1)) (.var 2)) (.mul (.num 5 1) (.pow (.var 2) 2))) (.mul (.num 2 1) (.pow (.var 2) 3)))))))) (.div (.mul (.mul (.num 3 1) (.add (.neg (.num 3 1)) (.mul (.num 2 1) (.var 2)))) (.sqrt (.div (.mul (.var 2) (.add (.neg (.num 1 1)) (.mul (.num 2 1) (.var 2)))) (.add (.add (.add (.num 2 1) (.mul (.num 7 1) (.var 2))) (.mul (.num 7 1) (.pow (.var 2) 2))) (.mul (.num 2 1) (.pow (.var 2) 3)))))) (.add (.add (.num 3 1) (.mul (.num 5 1) (.var 2))) (.mul (.num 2 1) (.pow (.var 2) 2)))))),
  .neg (.div (.mul (.sqrt (.add (.num 2 1) (.div (.num 2 1) (.var 2)))) (.add (.mul (.mul (.num 45 1) (.var 2)) (.sqrt (.mul (.mul (.mul (.var 2) (.add (.num 1 1) (.var 2))) (.add (.num 2 1) (.var 2))) (.add (.num 3 1) (.mul (.num 2 1) (.var 2)))))) (.mul (.num 2 1) (.add (.add (.mul (.num 15 1) (.sqrt (.mul (.mul (.mul (.var 2) (.add (.num 1 1) (.var 2))) (.add (.num 2 1) (.var 2))) (.add (.num 3 1) (.mul (.num 2 1) (.var 2)))))) (.mul (.num 9 1) (.sqrt (.mul (.mul (.mul (.pow (.var 2) 5) (.add (.num 1 1) (.var 2))) (.add (.num 2 1) (.var 2))) (.add (.num 3 1) (.mul (.num 2 1) (.var 2))))))) (.sqrt (.mul (.mul (.mul (.mul (.pow (.var 2) 3) (.pow (.add (.num 1 1) (.var 2)) 3)) (.add (.num 2 1) (.var 2))) (.pow (.add (.num 1 1) (.mul (.num 2 1) (.var 2))) 2)) (.add (.num 3 1) (.mul (.num 2 1) (.var 2))))))))) (.mul (.mul (.pow (.add (.num 2 1) (.var 2)) 2) (.hpow (.mul (.add (.num 1 1) (.var 2)) (.add (.num 3 1) (.mul (.num 2 1) (.var 2)))) 1)) (.add (.num 5 1) (.mul (.num 2 1) (.var 2))))),
  .div (.mul (.mul (.sqrt (.num 3 1)) (.add (.num 2 1) (.var 2))) (.add (.neg (.num 1 1)) (.mul (.num 2 1) (.var 2)))) (.mul (.mul (.add (.num 1 1) (.mul (.num 2 1) (.var 1))) (.add (.num 1 1) (.var 2))) (.sqrt (.mul (.mul (.mul (.var 2) (.add (.num 2 1) (.var 2))) (.add (.neg (.num 1 1)) (.mul (.num 2 1) (.var 2)))) (.add (.num 1 1) (.mul (.num 2 1) (.var 2)))))),
  .div (.sub (.num 2 1) (.mul (.var 2) (.add (.num 2 1) (.var 2)))) (.mul (.mul (.add (.num 1 1) (.mul (.num 2 1) (.var 1))) (.add (.num 1 1) (.var 2))) (.sqrt (.mul (.var 2) (.add (.num 2 1) (.var 2))))),
  .neg (.div (.sqrt (.num 2 1)) (.mul (.add (.num 1 1) (.mul (.num 2 1) (.var 1))) (.sqrt (.mul (.add (.num 1 1) (.var 2)) (.add (.num 2 1) (.var 2)))))),
  .mul (.mul (.sqrt (.num 2 1)) (.sqrt (.div (.num 1 1) (.mul (.mul (.mul (.var 2) (.pow (.add (.num 1 1) (.var 2)) 2)) (.add (.num 5 1) (.mul (.num 2 1) (.var 2)))) (.pow (.add (.add (.num 6 1) (.mul (.num 7 1) (.var 2))) (.mul (.num 2 1) (.pow (.var 2) 2))) 3))))) (.add (.add (.add (.mul (.num 30 1) (.sqrt (.mul (.var 2) (.add (.num 1 1) (.var 2))))) (.mul (.num 47 1) (.sqrt (.mul (.pow (.var 2) 3) (.add (.num 1 1) (.var 2)))))) (.mul (.num 24 1) (.sqrt (.mul (.pow (.var 2) 5) (.add (.num 1 1) (.var 2)))))) (.mul (.num 4 1) (.sqrt (.mul (.pow (.var 2) 7) (.add (.num 1 1) (.var 2)))))),
  .neg (.div (.mul (.var 2) (.add (.num 3 1) (.var 2))) (.sqrt (.mul (.mul (.mul (.var 2) (.add (.num 1 1) (.var 2))) (.add (.num 2 1) (.var 2))) (.add (.num 3 1) (.var 2))))),
  .mul (.mul (.sqrt (.num 2 1)) (.sqrt (.div (.num 1 1) (.mul (.mul (.mul (.mul (.pow (.add (.num 1 1) (.mul (.num 2 1) (.var 1))) 3) (.var 2)) (.pow (.add (.num 1 1) (.var 2)) 2)) (.add (.num 5 1) (.mul (.num 2 1) (.var 2)))) (.pow (.add (.add (.num 6 1) (.mul (.num 7 1) (.var 2))) (.mul (.num 2 1) (.pow (.var 2) 2))) 3))))) (.add (.sub (.sub (.sub (.sub (.mul (.num 30 1) (.sqrt (.mul (.mul (.add (.num 1 1) (.mul (.num 2 1) (.var 1))) (.var 2)) (.add (.num 1 1) (.var 2))))) (.mul (.num 9 1) (.sqrt (.mul (.mul (.add (.num 1 1) (.mul (.num 2 1) (.var 1))) (.pow (.var 2) 3)) (.add (.num 1 1) (.var 2)))))) (.mul (.num 29 1) (.sqrt (.mul (.mul (.add (.num 1 1) (.mul (.num 2 1) (.var 1))) (.pow (.var 2) 5)) (.add (.num 1 1) (.var 2)))))) (.mul (.num 24 1) (.sqrt (.mul (.mul (.add (.num 1 1) (.mul (.num 2 1) (.var 1))) (.pow (.var 2) 7)) (.add (.num 1 1) (.var 2)))))) (.mul (.num 4 1) (.sqrt (.mul (.mul (.add (.num 1 1) (.mul (.num 2 1) (.var 1))) (.pow (.var 2) 9)) (.add (.num 1 1) (.var 2)))))) (.mul (.mul (.var 2) (.sqrt (.mul (.mul (.add (.num 1 1) (.mul (.num 2 1) (.var 1))) (.var 2)) (.add (.num 1 1) (.var 2))))) (.add (.num 56 1) (.mul (.var 2) (.add (.num 53 1) (.mul (.mul (.num 4 1) (.var 2)) (.add (.num 7 1) (.var 2)))))))),
  .neg (.div (.sqrt (.div (.mul (.mul (.var 2) (.add (.num 1 1) (.var 2))) (.add (.num 3 1) (.var 2))) (.add (.num 2 1) (.var 2)))) (.mul (.add (.num 1 1) (.mul (.num 2 1) (.var 1))) (.add (.num 1 1) (.var 2)))),
  .neg (.div (.mul (.sqrt (.num 2 1)) (.add (.sqrt (.div (.mul (.var 1) (.add (.neg (.num 3 1)) (.mul (.num 2 1) (.var 2)))) (.add (.num 1 1) (.mul (.num 2 1) (.var 1))))) (.sqrt (.mul (.mul (.var 1) (.add (.num 1 1) (.mul (.num 2 1) (.var 1)))) (.add (.neg (.num 3 1)) (.mul (.num 2 1) (.var 2))))))) (.sqrt (.mul (.mul (.mul (.mul (.add (.num 1 1) (.var 1)) (.add (.num 1 1) (.mul (.num 2 1) (.var 1)))) (.add (.neg (.num 1 1)) (.var 2))) (.var 2)) (.add (.neg (.num 1 1)) (.mul (.num 2 1) (.var 2)))))),
  .div (.mul (.mul (.neg (.num 2 1)) (.add (.neg (.num 3 1)) (.pow (.var 2) 2))) (.sqrt (.div (.mul (.var 1) (.add (.num 1 1) (.var 1))) (.add (.neg (.num 1 1)) (.pow (.var 2) 2))))) (.add (.var 2) (.mul (.mul (.num 2 1) (.var 1)) (.var 2))),
  .div (.mul (.mul (.neg (.num 2 1)) (.sqrt (.num 3 1))) (.add (.mul (.mul (.var 2) (.sqrt (.div (.mul (.mul (.var 1) (.add (.num 1 1) (.var 1))) (.add (.num 1 1) (.var 2))) (.add (.neg (.num 1 1)) (.var 2))))) (.add (.neg (.num 5 1)) (.mul (.num 2 1) (.var 2)))) (.mul (.num 3 1) (.add (.sqrt (.div (.mul (.mul (.var 1) (.add (.num 1 1) (.var 1))) (.add (.num 1 1) (.var 2))) (.add (.neg (.num 1 1)) (.var 2)))) (.mul (.num 2 1) (.sqrt (.mul (.mul (.var 1) (.add (.num 1 1) (.var 1))) (.add (.neg (.num 1 1)) (.pow (.var 2) 2))))))))) (.mul (.mul (.mul (.add (.num 1 1) (.mul (.num 2 1) (.var 1))) (.var 2)) (.add (.num 1 1) (.var 2))) (.sqrt (.add (.num 3 1) (.mul (.mul (.num 4 1) (.var 2)) (.add (.num 2 1) (.var 2)))))),
  .div (.mul (.sqrt (.num 3 1)) (.add (.add (.sub (.sub (.add (.add (.sub (.add (.add (.add (.mul (.num 3 1) (.sqrt (.div (.mul (.var 1) (.add (.neg (.num 1 1)) (.var 2))) (.mul (.mul (.add (.num 1 1) (.mul (.num 2 1) (.var 1))) (.var 2)) (.add (.neg (.num 1 1)) (.mul (.num 2 1) (.var 2))))))) (.mul (.mul (.sub (.num 3 1) (.mul (.num 2 1) (.var 2))) (.var 2)) (.sqrt (.div (.mul (.var 1) (.add (.neg (.num 1 1)) (.var 2))) (.mul (.mul (.add (.num 1 1) (.mul (.num 2 1) (.var 1))) (.var 2)) (.add (.neg (.num 1 1)) (.mul (.num 2 1) (.var 2)))))))) (.mul (.num 3 1) (.sqrt (.div (.mul (.mul (.var 1) (.add (.num 1 1) (.mul (.num 2 1) (.var 1)))) (.add (.neg (.num 1 1)) (.var 2))) (.mul (.var 2) (.add (.neg (.num 1 1)) (.mul (.num 2 1) (.var 2)))))))) (.mul (.num 3 1) (.sqrt (.div (.mul (.mul (.mul (.var 1) (.add (.num 1 1) (.mul (.num 2 1) (.var 1)))) (.add (.neg (.num 1 1)) (.var 2))) (.var 2)) (.add (.neg (.num 1 1)) (.mul (.num 2 1) (.var 2))))))) (.mul (.num 2 1) (.sqrt (.div (.mul (.mul (.mul (.var 1) (.add (.num 1 1) (.mul (.num 2 1) (.var 1)))) (.add (.neg (.num 1 1)) (.var 2))) (.pow (.var 2) 3)) (.add (.neg (.num 1 1)) (.mul (.num 2 1) (.var 2))))))) (.sqrt (.div (.mul (.var 1) (.var 2)) (.mul (.add (.num 1 1) (.mul (.num 2 1) (.var 1))) (.add (.sub (.num 1 1) (.mul (.num 3 1) (.var 2))) (.mul (.num 2 1) (.pow (.var 2) 2))))))) (.sqrt (.div (.mul (.mul (.var 1) (.add (.num 1 1) (.mul (.num 2 1) (.var 1)))) (.var 2)) (.add (.sub (.num 1 1) (.mul (.num 3 1) (.var 2))) (.mul (.num 2 1) (.pow (.var 2) 2)))))) (.mul (.num 3 1) (.sqrt (.div (.mul (.var 1) (.pow (.var 2) 3)) (.mul (.add (.num 1 1) (.mul (.num 2 1) (.var 1))) (.add (.sub (.num 1 1) (.mul (.num 3 1) (.var 2))) (.mul (.num 2 1) (.pow (.var 2) 2)))))))) (.mul (.num 3 1) (.sqrt (.div (.mul (.mul (.var 1) (.add (.num 1 1) (.mul (.num 2 1) (.var 1)))) (.pow (.var 2) 3)) (.add (.sub (.num 1 1) (.mul (.num 3 1) (.var 2))) (.mul (.num 2 1) (.pow (.var 2) 2))))))) (.mul (.num 2 1) (.sqrt (.div (.mul (.var 1) (.pow (.var 2) 5)) (.mul (.add (.num 1 1) (.mul (.num 2 1) (.var 1))) (.add (.sub (.num 1 1) (.mul (.num 3 1) (.var 2))) (.mul (.num 2 1) (.pow (.var 2) 2)))))))) (.mul (.num 2 1) (.sqrt (.div (.mul (.mul (.var 1) (.add (.num 1 1) (.mul (.num 2 1) (.var 1)))) (.pow (.var 2) 5)) (.add (.sub (.num 1 1) (.mul (.num 3 1) (.var 2))) (.mul (.num 2 1) (.pow (.var 2) 2)))))))) (.sqrt (.mul (.mul (.mul (.mul (.add (.num 1 1) (.var 1)) (.add (.num 1 1) (.mul (.num 2 1) (.var 1)))) (.var 2)) (.add (.num 1 1) (.var 2))) (.add (.num 3 1) (.mul (.num 2 1) (.var 2))))),
  .div (.mul (.mul (.neg (.num 2 1)) (.sqrt (.mul (.var 1) (.add (.num 1 1) (.var 1))))) (.add (.add (.neg (.num 3 1)) (.var 2)) (.pow (.var 2) 2))) (.mul (.add (.num 1 1) (.var 2)) (.add (.var 2) (.mul (.mul (.num 2 1) (.var 1)) (.var 2)))),
  .div (.mul (.mul (.mul (.neg (.num 2 1)) (.add (.num 1 1) (.var 1))) (.sqrt (.div (.add (.num 3 1) (.mul (.num 3 1) (.var 2))) (.add (.var 2) (.mul (.var 1) (.var 2)))))) (.add (.mul (.mul (.var 2) (.sqrt (.div (.mul (.mul (.mul (.var 1) (.add (.num 1 1) (.var 2))) (.add (.num 2 1) (.var 2))) (.add (.num 3 1) (.mul (.num 2 1) (.var 2)))) (.add (.neg (.num 1 1)) (.mul (.num 2 1) (.var 2)))))) (.add (.neg (.num 19 1)) (.mul (.mul (.num 4 1) (.var 2)) (.add (.num 3 1) (.var 2))))) (.mul (.num 6 1) (.add (.sqrt (.div (.mul (.mul (.mul (.var 1) (.add (.num 1 1) (.var 2))) (.add (.num 2 1) (.var 2))) (.add (.num 3 1) (.mul (.num 2 1) (.var 2)))) (.add (.neg (.num 1 1)) (.mul (.num 2 1) (.var 2))))) (.mul (.num 2 1) (.sqrt (.mul (.mul (.mul (.mul (.var 1) (.add (.num 1 1) (.var 2))) (.add (.num 2 1) (.var 2))) (.add (.neg (.num 1 1)) (.mul (.num 2 1) (.var 2)))) (.add (.num 3 1) (.mul (.num 2 1) (.var 2)))))))))) (.mul (.mul (.mul (.add (.num 1 1) (.mul (.num 2 1) (.var 1))) (.pow (.add (.num 1 1) (.var 2)) 2)) (.add (.num 2 1) (.var 2))) (.pow (.add (.num 3 1) (.mul (.num 2 1) (.var 2))) 2)),
  .neg (.mul (.mul (.sqrt (.num 3 1)) (.sqrt (.add (.num 1 1) (.var 2)))) (.add (.add (.add (.add (.add (.add (.add (.mul (.mul (.mul (.add (.neg (.num 3 1)) (.var 2)) (.var 2)) (.add (.neg (.num 1 1)) (.mul (.num 2 1) (.var 2)))) (.sqrt (.div (.mul (.var 1) (.add (.num 1 1) (.mul (.num 2 1) (.var 2)))) (.mul (.mul (.mul (.mul (.add (.num 1 1) (.var 1)) (.var 2)) (.pow (.add (.num 1 1) (.var 2)) 3)) (.pow (.add (.num 3 1) (.mul (.num 2 1) (.var 2))) 2)) (.add (.add (.neg (.num 2 1)) (.mul (.num 3 1) (.var 2))) (.mul (.num 2 1) (.pow (.var 2) 2))))))) (.mul (.mul (.mul (.add (.neg (.num 3 1)) (.var 2)) (.var 2)) (.add (.neg (.num 1 1)) (.mul (.num 2 1) (.var 2)))) (.sqrt (.div (.mul (.var 1) (.add (.num 1 1) (.mul (.num 2 1) (.var 2)))) (.mul (.mul (.mul (.mul (.mul (.add (.num 1 1) (.var 1)) (.pow (.add (.num 1 1) (.mul (.num 2 1) (.var 1))) 2)) (.var 2)) (.pow (.add (.num 1 1) (.var 2)) 3)) (.pow (.add (.num 3 1) (.mul (.num 2 1) (.var 2))) 2)) (.add (.add (.neg (.num 2 1)) (.mul (.num 3 1) (.var 2))) (.mul (.num 2 1) (.pow (.var 2) 2)))))))) (.mul (.mul (.mul (.num 3 1) (.var 2)) (.add (.neg (.num 3 1)) (.mul (.num 2 1) (.var 2)))) (.sqrt (.div (.mul (.var 1) (.add (.neg (.num 1 1)) (.mul (.num 2 1) (.var 2)))) (.mul (.mul (.mul (.mul (.add (.num 1 1) (.var 1)) (.var 2)) (.pow (.add (.num 1 1) (.var 2)) 3)) (.pow (.add (.num 3 1) (.mul (.num 2 1) (.var 2))) 2)) (.add (.add (.num 2 1) (.mul (.num 5 1) (.var 2))) (.mul (.num 2 1) (.pow (.var 2) 2)))))))) (.mul (.num 6 1) (.sqrt (.div (.mul (.mul (.var 1) (.pow (.add (.neg (.num 1 1)) (.var 2)) 2)) (.add (.neg (.num 1 1)) (.mul (.num 2 1) (.var 2)))) (.mul (.mul (.mul (.mul (.add (.num 1 1) (.var 1)) (.var 2)) (.pow (.add (.num 1 1) (.var 2)) 3)) (.pow (.add (.num 3 1) (.mul (.num 2 1) (.var 2))) 2)) (.add (.add (.num 2 1) (.mul (.num 5 1) (.var 2))) (.mul (.num 2 1) (.pow (.var 2) 2)))))))) (.mul (.num 6 1) (.sqrt (.div (.mul (.mul (.var 1) (.pow (.add (.neg (.num 1 1)) (.var 2)) 2)) (.add (.neg (.num 1 1)) (.mul (.num 2 1) (.var 2)))) (.mul (.mul (.mul (.mul (.mul (.add (.num 1 1) (.var 1)) (.pow (.add (.num 1 1) (.mul (.num 2 1) (.var 1))) 2)) (.var 2)) (.pow (.add (.num 1 1) (.var 2)) 3)) (.pow (.add (.num 3 1) (.mul (.num 2 1) (.var 2))) 2)) (.add (.add (.num 2 1) (.mul (.num 5 1) (.var 2))) (.mul (.num 2 1) (.pow (.var 2) 2)))))))) (.mul (.mul (.sub (.num 1 1) (.mul (.num 2 1) (.var 2))) (.var 2)) (.sqrt (.div (.mul (.var 1) (.add (.num 1 1) (.mul (.num 2 1) (.var 2)))) (.mul (.mul (.mul (.add (.num 1 1) (.var 1)) (.var 2)) (.pow (.add (.num 3 1) (.mul (.num 2 1) (.var 2))) 2)) (.add (.add (.add (.neg (.num 2 1)) (.var 2)) (.mul (.num 5 1) (.pow (.var 2) 2))) (.mul (.num 2 1) (.pow (.var 2) 3)))))))) (.mul (.mul (.sub (.num 1 1) (.mul (.num 2 1) (.var 2))) (.var 2)) (.sqrt (.div (.mul (.var 1) (.add (.num 1 1) (.mul (.num 2 1) (.var 2)))) (.mul (.mul (.mul (.mul (.add (.num 1 1) (.var 1)) (.pow (.add (.num 1 1) (.mul (.num 2 1) (.var 1))) 2)) (.var 2)) (.pow (.add (.num 3 1) (.mul (.num 2 1) (.var 2))) 2)) (.add (.add (.add (.neg (.num 2 1)) (.var 2)) (.mul (.num 5 1) (.pow (.var 2) 2))) (.mul (.num 2 1) (.pow (.var 2) 3)))))))) (.div (.mul (.mul (.num 3 1) (.add (.neg (.num 3 1)) (.mul (.num 2 1) (.var 2)))) (.sqrt (.div (.mul (.mul (.var 1) (.var 2)) (.add (.neg (.num 1 1)) (.mul (.num 2 1) (.var 2)))) (.mul (.mul (.add (.num 1 1) (.var 1)) (.pow (.add (.num 1 1) (.mul (.num 2 1) (.var 1))) 2)) (.add (.add (.add (.num 2 1) (.mul (.num 7 1) (.var 2))) (.mul (.num 7 1) (.pow (.var 2) 2))) (.mul (.num 2 1) (.pow (.var 2) 3))))))) (.add (.add (.num 3 1) (.mul (.num 5 1) (.var 2))) (.mul (.num 2 1) (.pow (.var 2) 2)))))),
  .neg (.div (.mul (.mul (.var 2) (.add (.num 1 1) (.mul (.num 2 1) (.var 2)))) (.add (.add (.add (.div (.mul (.mul (.mul (.mul (.mul (.mul (.num 6 1) (.sqrt (.var 1))) (.add (.num 1 1) (.var 1))) (.var 2)) (.add (.num 1 1) (.var 2))) (.hpow (.mul (.add (.num 2 1) (.var 2)) (.add (.num 3 1) (.mul (.num 2 1) (.var 2)))) 2)) (.add (.neg (.num 4 1)) (.mul (.pow (.var 2) 2) (.add (.num 7 1) (.mul (.num 4 1) (.var 2)))))) (.mul (.add (.num 1 1) (.mul (.num 2 1) (.var 1))) (.add (.num 1 1) (.mul (.num 2 1) (.var 2))))) (.div (.mul (.mul (.mul (.mul (.mul (.mul (.num 12 1) (.hpow (.var 1) 1)) (.add (.num 1 1) (.var 1))) (.var 2)) (.add (.num 1 1) (.var 2))) (.hpow (.mul (.add (.num 2 1) (.var 2)) (.add (.num 3 1) (.mul (.num 2 1) (.var 2)))) 2)) (.add (.neg (.num 4 1)) (.mul (.pow (.var 2) 2) (.add (.num 7 1) (.mul (.num 4 1) (.var 2)))))) (.mul (.add (.num 1 1) (.mul (.num 2 1) (.var 1))) (.add (.num 1 1) (.mul (.num 2 1) (.var 2)))))) (.div (.mul (.mul (.mul (.mul (.mul (.num 6 1) (.add (.num 1 1) (.var 1))) (.var 2)) (.add (.num 1 1) (.var 2))) (.hpow (.mul (.mul (.var 1) (.add (.num 2 1) (.var 2))) (.add (.num 3 1) (.mul (.num 2 1) (.var 2)))) 2)) (.add (.neg (.num 4 1)) (.mul (.pow (.var 2) 2) (.add (.num 7 1) (.mul (.num 4 1) (.var 2)))))) (.mul (.add (.num 1 1) (.mul (.num 2 1) (.var 1))) (.add (.num 1 1) (.mul (.num 2 1) (.var 2)))))) (.mul (.add (.neg (.num 2 1)) (.var 2)) (.add (.sqrt (.mul (.mul (.mul (.var 1) (.pow (.add (.num 1 1) (.var 1)) 4)) (.pow (.add (.var 2) (.pow (.var 2) 2)) 4)) (.pow (.add (.add (.num 6 1) (.mul (.num 7 1) (.var 2))) (.mul (.num 2 1) (.pow (.var 2) 2))) 5))) (.sqrt (.div (.mul (.mul (.mul (.var 1) (.pow (.add (.num 1 1) (.var 1)) 4)) (.pow (.add (.var 2) (.pow (.var 2) 2)) 4)) (.pow (.add (.add (.num 6 1) (.mul (.num 7 1) (.var 2))) (.mul (.num 2 1) (.pow (.var 2) 2))) 5)) (.pow (.add (.num 1 1) (.mul (.num 2 1) (.var 1))) 2))))))) (.mul (.mul (.mul (.hpow (.mul (.add (.num 1 1) (.var 1)) (.var 2)) 2) (.pow (.add (.num 1 1) (.var 2)) 2)) (.pow (.add (.num 2 1) (.var 2)) 4)) (.hpow (.add (.num 3 1) (.mul (.num 2 1) (.var 2))) 3))),
  .div (.mul (.mul (.neg (.num 2 1)) (.sqrt (.num 2 1))) (.sqrt (.div (.mul (.var 1) (.add (.num 1 1) (.var 1))) (.add (.add (.num 2 1) (.mul (.num 3 1) (.var 2))) (.pow (.var 2) 2))))) (.add (.num 1 1) (.mul (.num 2 1) (.var 1))),
  .div (.mul (.mul (.num 2 1) (.var 2)) (.add (.sub (.add (.mul (.mul (.num 11 1) (.var 2)) (.sqrt (.mul (.mul (.mul (.mul (.mul (.var 1) (.add (.num 1 1) (.var 1))) (.var 2)) (.add (.num 1 1) (.var 2))) (.add (.num 1 1) (.mul (.num 2 1) (.var 2)))) (.add (.num 5 1) (.mul (.num 2 1) (.var 2)))))) (.mul (.mul (.num 2 1) (.pow (.var 2) 2)) (.sqrt (.mul (.mul (.mul (.mul (.mul (.var 1) (.add (.num 1 1) (.var 1))) (.var 2)) (.add (.num 1 1) (.var 2))) (.add (.num 1 1) (.mul (.num 2 1) (.var 2)))) (.add (.num 5 1) (.mul (.num 2 1) (.var 2))))))) (.mul (.num 3 1) (.sub (.add (.mul (.mul (.add (.num 1 1) (.mul (.num 2 1) (.var 1))) (.add (.neg (.num 1 1)) (.mul (.num 2 1) (.var 2)))) (.sqrt (.div (.mul (.mul (.mul (.mul (.var 1) (.add (.num 1 1) (.var 1))) (.var 2)) (.add (.num 1 1) (.var 2))) (.add (.num 5 1) (.mul (.num 2 1) (.var 2)))) (.add (.num 1 1) (.mul (.num 2 1) (.var 2)))))) (.sqrt (.div (.mul (.mul (.mul (.mul (.mul (.var 1) (.add (.num 1 1) (.var 1))) (.pow (.sub (.num 1 1) (.mul (.num 2 1) (.var 2))) 2)) (.var 2)) (.add (.num 1 1) (.var 2))) (.add (.num 5 1) (.mul (.num 2 1) (.var 2)))) (.add (.num 1 1) (.mul (.num 2 1) (.var 2)))))) (.mul (.num 8 1) (.sqrt (.mul (.mul (.mul (.mul (.mul (.var 1) (.add (.num 1 1) (.var 1))) (.var 2)) (.add (.num 1 1) (.var 2))) (.add (.num 1 1) (.mul (.num 2 1) (.var 2)))) (.add (.num 5 1) (.mul (.num 2 1) (.var 2))))))))) (.mul (.mul (.var 1) (.sqrt (.mul (.mul (.mul (.mul (.mul (.var 1) (.add (.num 1 1) (.var 1))) (.var 2)) (.add (.num 1 1) (.var 2))) (.add (.num 1 1) (.mul (.num 2 1) (.var 2)))) (.add (.num 5 1) (.mul (.num 2 1) (.var 2)))))) (.add (.num 24 1) (.mul (.var 2) (.add (.num 11 1) (.mul (.num 2 1) (.var 2)))))))) (.mul (.mul (.mul (.mul (.mul (.add (.num 1 1) (.var 1)) (.add (.num 1 1) (.mul (.num 2 1) (.var 1)))) (.add (.num 1 1) (.var 2))) (.add (.num 5 1) (.mul (.num 2 1) (.var 2)))) (.hpow (.div (.mul (.mul (.var 2) (.add (.num 2 1) (.var 2))) (.add (.num 3 1) (.mul (.num 2 1) (.var 2)))) (.add (.num 2 1) (.mul (.num 4 1) (.var 2)))) 1)) (.add (.num 2 1) (.mul (.num 4 1) (.var 2)))),
  .div (.mul (.neg (.num 2 1)) (.add (.add (.add (.add (.add (.add (.mul (.num 54 1) (.sqrt (.div (.mul (.mul (.mul (.mul (.var 1) (.add (.num 1 1) (.var 1))) (.var 2)) (.add (.num 1 1) (.mul (.num 2 1) (.var 2)))) (.add (.num 5 1) (.mul (.num 2 1) (.var 2)))) (.add (.num 2 1) (.var 2))))) (.mul (.num 19 1) (.sqrt (.div (.mul (.mul (.mul (.mul (.var 1) (.add (.num 1 1) (.var 1))) (.pow (.var 2) 3)) (.add (.num 1 1) (.mul (.num 2 1) (.var 2)))) (.add (.num 5 1) (.mul (.num 2 1) (.var 2)))) (.add (.num 2 1) (.var 2)))))) (.mul (.num 4 1) (.sqrt (.div (.mul (.mul (.mul (.mul (.var 1) (.add (.num 1 1) (.var 1))) (.pow (.var 2) 5)) (.add (.num 1 1) (.mul (.num 2 1) (.var 2)))) (.add (.num 5 1) (.mul (.num 2 1) (.var 2)))) (.add (.num 2 1) (.var 2)))))) (.mul (.num 3 1) (.sqrt (.mul (.mul (.mul (.mul (.mul (.var 1) (.add (.num 1 1) (.var 1))) (.var 2)) (.add (.num 2 1) (.var 2))) (.add (.num 1 1) (.mul (.num 2 1) (.var 2)))) (.add (.num 5 1) (.mul (.num 2 1) (.var 2))))))) (.mul (.num 30 1) (.sqrt (.div (.mul (.mul (.mul (.var 1) (.add (.num 1 1) (.var 1))) (.var 2)) (.add (.num 5 1) (.mul (.num 2 1) (.var 2)))) (.add (.add (.num 2 1) (.mul (.num 5 1) (.var 2))) (.mul (.num 2 1) (.pow (.var 2) 2))))))) (.mul (.var 1) (.add (.add (.add (.add (.add (.mul (.num 54 1) (.sqrt (.div (.mul (.mul (.mul (.mul (.var 1) (.add (.num 1 1) (.var 1))) (.var 2)) (.add (.num 1 1) (.mul (.num 2 1) (.var 2)))) (.add (.num 5 1) (.mul (.num 2 1) (.var 2)))) (.add (.num 2 1) (.var 2))))) (.mul (.num 38 1) (.sqrt (.div (.mul (.mul (.mul (.mul (.var 1) (.add (.num 1 1) (.var 1))) (.pow (.var 2) 3)) (.add (.num 1 1) (.mul (.num 2 1) (.var 2)))) (.add (.num 5 1) (.mul (.num 2 1) (.var 2)))) (.add (.num 2 1) (.var 2)))))) (.mul (.num 8 1) (.sqrt (.div (.mul (.mul (.mul (.mul (.var 1) (.add (.num 1 1) (.var 1))) (.pow (.var 2) 5)) (.add (.num 1 1) (.mul (.num 2 1) (.var 2)))) (.add (.num 5 1) (.mul (.num 2 1) (.var 2)))) (.add (.num 2 1) (.var 2)))))) (.mul (.num 3 1) (.sqrt (.mul (.mul (.mul (.mul (.mul (.var 1) (.add (.num 1 1) (.var 1))) (.var 2)) (.add (.num 2 1) (.var 2))) (.add (.num 1 1) (.mul (.num 2 1) (.var 2)))) (.add (.num 5 1) (.mul (.num 2 1) (.var 2))))))) (.mul (.mul (.var 2) (.add (.num 5 1) (.mul (.num 2 1) (.var 2)))) (.sqrt (.mul (.mul (.mul (.mul (.mul (.var 1) (.add (.num 1 1) (.var 1))) (.var 2)) (.add (.num 2 1) (.var 2))) (.add (.num 1 1) (.mul (.num 2 1) (.var 2)))) (.add (.num 5 1) (.mul (.num 2 1) (.var 2))))))) (.mul (.num 30 1) (.sqrt (.div (.mul (.mul (.mul (.var 1) (.add (.num 1 1) (.var 1))) (.var 2)) (.add (.num 5 1) (.mul (.num 2 1) (.var 2)))) (.add (.add (.num 2 1) (.mul (.num 5 1) (.var 2))) (.mul (.num 2 1) (.pow (.var 2) 2))))))))) (.mul (.var 2) (.add (.add (.mul (.num 19 1) (.sqrt (.div (.mul (.mul (.mul (.mul (.var 1) (.add (.num 1 1) (.var 1))) (.var 2)) (.add (.num 1 1) (.mul (.num 2 1) (.var 2)))) (.add (.num 5 1) (.mul (.num 2 1) (.var 2)))) (.add (.num 2 1) (.var 2))))) (.mul (.num 5 1) (.sqrt (.mul (.mul (.mul (.mul (.mul (.var 1) (.add (.num 1 1) (.var 1))) (.var 2)) (.add (.num 2 1) (.var 2))) (.add (.num 1 1) (.mul (.num 2 1) (.var 2)))) (.add (.num 5 1) (.mul (.num 2 1) (.var 2))))))) (.mul (.mul (.num 2 1) (.var 2)) (.add (.mul (.num 2 1) (.sqrt (.div (.mul (.mul (.mul (.mul (.var 1) (.add (.num 1 1) (.var 1))) (.var 2)) (.add (.num 1 1) (.mul (.num 2 1) (.var 2)))) (.add (.num 5 1) (.mul (.num 2 1) (.var 2)))) (.add (.num 2 1) (.var 2))))) (.sqrt (.mul (.mul (.mul (.mul (.mul (.var 1) (.add (.num 1 1) (.var 1))) (.var 2)) (.add (.num 2 1) (.var 2))) (.add (.num 1 1) (.mul (.num 2 1) (.var 2)))) (.add (.num 5 1) (.mul (.num 2 1) (.var 2))))))))))) (.mul (.mul (.mul (.mul (.mul (.add (.num 1 1) (.var 1)) (.add (.num 1 1) (.mul (.num 2 1) (.var 1)))) (.add (.num 2 1) (.var 2))) (.add (.num 3 1) (.mul (.num 2 1) (.var 2)))) (.add (.num 5 1) (.mul (.num 2 1) (.var 2)))) (.sqrt (.add (.mul (.var 2) (.add (.num 6 1) (.var 2))) (.mul (.num 5 1) (.add (.num 2 1) (.div (.num 1 1) (.add (.num 1 1) (.mul (.num 2 1) (.var 2))))))))),
  .neg (.div (.sqrt (.add (.add (.sub (.neg (.num 1 1)) (.div (.num 1 1) (.var 1))) (.mul (.num 4 1) (.var 1))) (.mul (.num 4 1) (.pow (.var 1) 2)))) (.add (.var 2) (.mul (.mul (.num 2 1) (.var 1)) (.var 2)))),
  .div (.mul (.neg (.num 2 1)) (.sqrt (.mul (.mul (.var 1) (.add (.num 1 1) (.var 1))) (.add (.neg (.num 3 1)) (.mul (.mul (.num 4 1) (.var 2)) (.add (.num 1 1) (.var 2))))))) (.mul (.add (.num 1 1) (.mul (.num 2 1) (.var 1))) (.add (.num 1 1) (.mul (.num 2 1) (.var 2)))),
  .div (.mul (.num 2 1) (.sqrt (.div (.mul (.mul (.var 1) (.add (.num 1 1) (.var 1))) (.add (.num 3 1) (.mul (.num 2 1) (.var 2)))) (.add (.num 1 1) (.mul (.num 2 1) (.var 2)))))) (.add (.add (.add (.num 1 1) (.mul (.num 2 1) (.var 1))) (.var 2)) (.mul (.mul (.num 2 1) (.var 1)) (.var 2))),
  .div (.mul (.neg (.num 2 1)) (.add (.mul (.num 2 1) (.sqrt (.div (.mul (.mul (.var 1) (.add (.num 1 1) (.var 1))) (.var 2)) (.add (.num 2 1) (.var 2))))) (.sqrt (.div (.mul (.mul (.var 1) (.add (.num 1 1) (.var 1))) (.pow (.var 2) 3)) (.add (.num 2 1) (.var 2)))))) (.add (.add (.add (.num 1 1) (.mul (.num 2 1) (.var 1))) (.var 2)) (.mul (.mul (.num 2 1) (.var 1)) (.var 2))),
  .div (.mul (.neg (.num 2 1)) (.sqrt (.div (.mul (.var 1) (.add (.num 1 1) (.var 1))) (.pow (.add (.num 1 1) (.mul (.num 2 1) (.var 1))) 2)))) (.add (.add (.num 1 1) (.mul (.num 3 1) (.var 2))) (.mul (.num 2 1) (.pow (.var 2) 2))),
  .div (.mul (.num 2 1) (.sqrt (.mul (.var 1) (.add (.num 1 1) (.var 1))))) (.add (.add (.add (.num 1 1) (.mul (.num 2 1) (.var 1))) (.var 2)) (.mul (.mul (.num 2 1) (.var 1)) (.var 2))),
  .div (.add (.add (.sub (.mul (.mul (.neg (.num 2 1)) (.pow (.var 2) 2)) (.sqrt (.div (.mul (.mul (.add (.num 1 1) (.var 1)) (.var 2)) (.add (.num 1 1) (.var 2))) (.add (.num 1 1) (.mul (.num 2 1) (.var 2)))))) (.sqrt (.div (.mul (.add (.num 1 1) (.var 1)) (.pow (.var 2) 3)) (.add (.add (.num 1 1) (.mul (.num 3 1) (.var 2))) (.mul (.num 2 1) (.pow (.var 2) 2)))))) (.sqrt (.div (.mul (.add (.num 1 1) (.var 1)) (.pow (.var 2) 5)) (.add (.add (.num 1 1) (.mul (.num 3 1) (.var 2))) (.mul (.num 2 1) (.pow (.var 2) 2)))))) (.mul (.num 2 1) (.sqrt (.div (.mul (.add (.num 1 1) (.var 1)) (.pow (.var 2) 7)) (.add (.add (.num 1 1) (.mul (.num 3 1) (.var 2))) (.mul (.num 2 1) (.pow (.var 2) 2))))))) (.mul (.mul (.mul (.add (.num 1 1) (.mul (.num 2 1) (.var 1))) (.hpow (.var 2) 1)) (.pow (.add (.num 1 1) (.var 2)) 2)) (.sqrt (.div (.add (.num 1 1) (.var 1)) (.add (.add (.num 3 1) (.mul (.num 5 1) (.var 2))) (.mul (.num 2 1) (.pow (.var 2) 2)))))),
  .div (.sub (.add (.mul (.mul (.var 2) (.sqrt (.div (.mul (.mul (.add (.num 1 1) (.var 1)) (.var 2)) (.add (.num 3 1) (.mul (.num 2 1) (.var 2)))) (.add (.num 1 1) (.mul (.num 2 1) (.var 1)))))) (.add (.neg (.num 1 1)) (.pow (.var 2) 2))) (.mul (.num 3 1) (.add (.sqrt (.div (.mul (.mul (.add (.num 1 1) (.var 1)) (.pow (.var 2) 3)) (.add (.num 3 1) (.mul (.num 2 1) (.var 2)))) (.add (.num 1 1) (.mul (.num 2 1) (.var 1))))) (.sqrt (.div (.mul (.mul (.add (.num 1 1) (.var 1)) (.pow (.var 2) 5)) (.add (.num 3 1) (.mul (.num 2 1) (.var 2)))) (.add (.num 1 1) (.mul (.num 2 1) (.var 1)))))))) (.mul (.mul (.num 2 1) (.var 1)) (.add (.mul (.mul (.var 2) (.sqrt (.div (.mul (.mul (.add (.num 1 1) (.var 1)) (.var 2)) (.add (.num 3 1) (.mul (.num 2 1) (.var 2)))) (.pow (.add (.num 1 1) (.mul (.num 2 1) (.var 1))) 3)))) (.add (.neg (.num 1 1)) (.pow (.var 2) 2))) (.mul (.num 3 1) (.add (.sqrt (.div (.mul (.mul (.add (.num 1 1) (.var 1)) (.pow (.var 2) 3)) (.add (.num 3 1) (.mul (.num 2 1) (.var 2)))) (.pow (.add (.num 1 1) (.mul (.num 2 1) (.var 1))) 3))) (.sqrt (.div (.mul (.mul (.add (.num 1 1) (.var 1)) (.pow (.var 2) 5)) (.add (.num 3 1) (.mul (.num 2 1) (.var 2)))) (.pow (.add (.num 1 1) (.mul (.num 2 1) (.var 1))) 3)))))))) (.mul (.mul (.var 2) (.pow (.add (.num 1 1) (.var 2)) 2)) (.sqrt (.div (.mul (.mul (.add (.num 1 1) (.var 1)) (.add (.num 2 1) (.var 2))) (.add (.num 3 1) (.mul (.num 2 1) (.var 2)))) (.add (.num 1 1) (.mul (.num 2 1) (.var 1)))))),
  .div (.add (.add (.sqrt (.mul (.add (.num 1 1) (.var 1)) (.var 2))) (.mul (.num 2 1) (.sqrt (.mul (.add (.num 1 1) (.var 1)) (.pow (.var 2) 3))))) (.sqrt (.mul (.add (.num 1 1) (.var 1)) (.pow (.var 2) 5)))) (.mul (.pow (.add (.num 1 1) (.var 2)) 3) (.sqrt (.div (.mul (.mul (.add (.num 1 1) (.var 1)) (.var 2)) (.add (.num 1 1) (.mul (.num 2 1) (.var 2)))) (.add (.num 3 1) (.mul (.num 2 1) (.var 2)))))),
  .neg (.div (.mul (.add (.num 2 1) (.var 2)) (.add (.mul (.mul (.add (.neg (.num 1 1)) (.var 2)) (.var 2)) (.add (.mul (.num 2 1) (.sqrt (.div (.mul (.mul (.mul (.mul (.pow (.add (.num 1 1) (.var 1)) 3) (.add (.num 3 1) (.mul (.num 2 1) (.var 1)))) (.var 2)) (.pow (.add (.num 1 1) (.var 2)) 5)) (.pow (.add (.num 3 1) (.mul (.num 2 1) (.var 2))) 2)) (.pow (.add (.num 1 1) (.mul (.num 2 1) (.var 1))) 3)))) (.sqrt (.div (.mul (.mul (.mul (.mul (.pow (.add (.num 1 1) (.var 1)) 3) (.add (.num 3 1) (.mul (.num 2 1) (.var 1)))) (.var 2)) (.pow (.add (.num 1 1) (.var 2)) 5)) (.pow (.add (.num 3 1) (.mul (.num 2 1) (.var 2))) 2)) (.add (.num 1 1) (.mul (.num 2 1) (.var 1))))))) (.mul (.num 3 1) (.add (.mul (.num 2 1) (.sqrt (.div (.mul (.mul (.mul (.mul (.pow (.add (.num 1 1) (.var 1)) 3) (.add (.num 3 1) (.mul (.num 2 1) (.var 1)))) (.pow (.var 2) 3)) (.pow (.add (.num 1 1) (.var 2)) 5)) (.pow (.add (.num 3 1) (.mul (.num 2 1) (.var 2))) 2)) (.pow (.add (.num 1 1) (.mul (.num 2 1) (.var 1))) 3)))) (.sqrt (.div (.mul (.mul (.mul (.mul (.pow (.add (.num 1 1) (.var 1)) 3) (.add (.num 3 1) (.mul (.num 2 1) (.var 1)))) (.pow (.var 2) 3)) (.pow (.add (.num 1 1) (.var 2)) 5)) (.pow (.add (.num 3 1) (.mul (.num 2 1) (.var 2))) 2)) (.add (.num 1 1) (.mul (.num 2 1) (.var 1))))))))) (.mul (.mul (.mul (.var 2) (.hpow (.add (.num 1 1) (.var 2)) 3)) (.hpow (.div (.mul (.mul (.add (.num 1 1) (.var 1)) (.add (.num 3 1) (.mul (.num 2 1) (.var 1)))) (.add (.num 2 1) (.var 2))) (.add (.num 1 1) (.mul (.num 2 1) (.var 1)))) 1)) (.add (.num 3 1) (.mul (.num 2 1) (.var 2))))),
  .div (.num 1 1) (.mul (.add (.num 1 1) (.mul (.num 2 1) (.var 1))) (.add (.add (.num 1 1) (.mul (.num 3 1) (.var 2))) (.mul (.num 2 1) (.pow (.var 2) 2)))),
  .div (.num 1 1) (.sub (.sub (.neg (.num 1 1)) (.mul (.num 3 1) (.var 2))) (.mul (.num 2 1) (.pow (.var 2) 2))),
  .sqrt (.div (.sub (.num 9 1) (.mul (.num 4 1) (.pow (.var 2) 2))) (.sub (.num 1 1) (.mul (.num 4 1) (.pow (.var 2) 2)))),
  .neg (.div (.num 1 1) (.sqrt (.div (.mul (.mul (.var 2) (.add (.num 1 1) (.var 2))) (.add (.num 1 1) (.mul (.num 2 1) (.var 2)))) (.add (.num 6 1) (.mul (.num 4 1) (.var 2)))))),
  .div (.add (.add (.neg (.num 2 1)) (.var 2)) (.pow (.var 2) 2)) (.sqrt (.div (.mul (.mul (.mul (.mul (.add (.neg (.num 1 1)) (.var 2)) (.var 2)) (.add (.num 1 1) (.var 2))) (.add (.num 2 1) (.var 2))) (.pow (.add (.num 1 1) (.mul (.num 2 1) (.var 2))) 2)) (.add (.neg (.num 3 1)) (.mul (.mul (.num 4 1) (.var 2)) (.add (.num 1 1) (.var 2)))))),
  .div (.sqrt (.num 6 1)) (.sqrt (.mul (.mul (.mul (.var 2) (.add (.num 1 1) (.var 2))) (.add (.neg (.num 1 1)) (.mul (.num 2 1) (.var 2)))) (.add (.num 1 1) (.mul (.num 2 1) (.var 2))))),
  .neg (.div (.mul (.add (.num 2 1) (.var 2)) (.sqrt (.div (.add (.neg (.num 3 1)) (.mul (.num 6 1) (.var 2))) (.mul (.var 2) (.add (.add (.num 2 1) (.mul (.num 5 1) (.var 2))) (.mul (.num 2 1) (.pow (.var 2) 2))))))) (.add (.num 1 1) (.var 2))),
  .div (.mul (.mul (.add (.num 2 1) (.var 2)) (.add (.neg (.num 1 1)) (.mul (.num 2 1) (.var 2)))) (.add (.num 5 1) (.mul (.num 2 1) (.var 2)))) (.mul (.add (.num 1 1) (.var 2)) (.sqrt (.div (.mul (.mul (.mul (.mul (.add (.num 2 1) (.var 2)) (.add (.neg (.num 1 1)) (.mul (.num 2 1) (.var 2)))) (.add (.num 1 1) (.mul (.num 2 1) (.var 2)))) (.add (.num 3 1) (.mul (.num 2 1) (.var 2)))) (.add (.num 5 1) (.mul (.num 2 1) (.var 2)))) (.var 2)))),
  .div (.num 3 1) (.add (.add (.num 1 1) (.mul (.num 3 1) (.var 2))) (.mul (.num 2 1) (.pow (.var 2) 2))),
  .div (.mul (.mul (.sqrt (.num 3 1)) (.var 2)) (.add (.mul (.num 2 1) (.add (.mul (.neg (.num 60 1)) (.sqrt (.div (.add (.num 3 1) (.mul (.num 2 1) (.var 2))) (.mul (.mul (.add (.num 1 1) (.var 2)) (.add (.num 2 1) (.var 2))) (.add (.num 5 1) (.mul (.num 2 1) (.var 2))))))) (.sqrt (.mul (.mul (.mul (.add (.num 1 1) (.var 2)) (.add (.num 2 1) (.var 2))) (.add (.num 3 1) (.mul (.num 2 1) (.var 2)))) (.add (.num 5 1) (.mul (.num 2 1) (.var 2))))))) (.mul (.var 2) (.add (.mul (.neg (.num 6 1)) (.add (.mul (.num 43 1) (.sqrt (.div (.add (.num 3 1) (.mul (.num 2 1) (.var 2))) (.mul (.mul (.add (.num 1 1) (.var 2)) (.add (.num 2 1) (.var 2))) (.add (.num 5 1) (.mul (.num 2 1) (.var 2))))))) (.sqrt (.mul (.mul (.mul (.add (.num 1 1) (.var 2)) (.add (.num 2 1) (.var 2))) (.add (.num 3 1) (.mul (.num 2 1) (.var 2)))) (.add (.num 5 1) (.mul (.num 2 1) (.var 2))))))) (.mul (.var 2) (.add (.sub (.mul (.neg (.num 9 1)) (.sqrt (.div (.add (.num 3 1) (.mul (.num 2 1) (.var 2))) (.mul (.mul (.add (.num 1 1) (.var 2)) (.add (.num 2 1) (.var 2))) (.add (.num 5 1) (.mul (.num 2 1) (.var 2))))))) (.mul (.num 20 1) (.sqrt (.mul (.mul (.mul (.add (.num 1 1) (.var 2)) (.add (.num 2 1) (.var 2))) (.add (.num 3 1) (.mul (.num 2 1) (.var 2)))) (.add (.num 5 1) (.mul (.num 2 1) (.var 2))))))) (.mul (.mul (.mul (.num 3 1) (.var 2)) (.sqrt (.div (.add (.num 3 1) (.mul (.num 2 1) (.var 2))) (.mul (.mul (.add (.num 1 1) (.var 2)) (.add (.num 2 1) (.var 2))) (.add (.num 5 1) (.mul (.num 2 1) (.var 2))))))) (.add (.num 95 1) (.mul (.mul (.num 4 1) (.var 2)) (.add (.num 16 1) (.mul (.num 3 1) (.var 2)))))))))))) (.mul (.mul (.mul (.add (.num 1 1) (.var 2)) (.pow (.add (.num 2 1) (.var 2)) 2)) (.sqrt (.mul (.mul (.mul (.var 2) (.add (.num 1 1) (.var 2))) (.add (.num 1 1) (.mul (.num 2 1) (.var 2)))) (.add (.num 3 1) (.mul (.num 2 1) (.var 2)))))) (.add (.num 5 1) (.mul (.num 2 1) (.var 2)))),
  .div (.mul (.var 2) (.add (.num 3 1) (.var 2))) (.sqrt (.mul (.mul (.mul (.var 2) (.add (.num 1 1) (.var 2))) (.add (.num 2 1) (.var 2))) (.add (.num 3 1) (.var 2)))),
  .div (.sqrt (.num 6 1)) (.sqrt (.mul (.mul (.mul (.add (.num 1 1) (.var 2)) (.add (.num 2 1) (.var 2))) (.add (.num 1 1) (.mul (.num 2 1) (.var 2)))) (.add (.num 3 1) (.mul (.num 2 1) (.var 2))))),
  .neg (.div (.sqrt (.num 2 1)) (.sqrt (.mul (.add (.num 1 1) (.var 2)) (.add (.num 2 1) (.var 2))))),
  .div (.sqrt (.div (.mul (.add (.add (.neg (.num 1 1)) (.var 1)) (.mul (.num 2 1) (.pow (.var 1) 2))) (.add (.neg (.num 3 1)) (.mul (.mul (.num 4 1) (.var 2)) (.add (.num 1 1) (.var 2))))) (.mul (.var 1) (.add (.num 1 1) (.mul (.num 2 1) (.var 1)))))) (.add (.num 1 1) (.mul (.num 2 1) (.var 2))),
  .neg (.div (.sqrt (.div (.mul (.add (.add (.neg (.num 1 1)) (.var 1)) (.mul (.num 2 1) (.pow (.var 1) 2))) (.add (.num 3 1) (.mul (.num 2 1) (.var 2)))) (.mul (.add (.var 1) (.mul (.num 2 1) (.pow (.var 1) 2))) (.add (.num 1 1) (.mul (.num 2 1) (.var 2)))))) (.add (.num 1 1) (.var 2))),
  .div (.num 1 1) (.mul (.sqrt (.div (.mul (.var 1) (.add (.num 1 1) (.mul (.num 2 1) (.var 1)))) (.add (.add (.neg (.num 1 1)) (.var 1)) (.mul (.num 2 1) (.pow (.var 1) 2))))) (.add (.add (.num 1 1) (.mul (.num 3 1) (.var 2))) (.mul (.num 2 1) (.pow (.var 2) 2)))),
  .neg (.div (.num 1 1) (.mul (.sqrt (.div (.mul (.var 1) (.add (.num 1 1) (.mul (.num 2 1) (.var 1)))) (.add (.add (.neg (.num 1 1)) (.var 1)) (.mul (.num 2 1) (.pow (.var 1) 2))))) (.add (.num 1 1) (.var 2)))),
  .div (.num 1 1) (.sqrt (.div (.mul (.var 1) (.add (.num 1 1) (.mul (.num 2 1) (.var 1)))) (.add (.add (.neg (.num 1 1)) (.var 1)) (.mul (.num 2 1) (.pow (.var 1) 2))))),
  .div (.mul (.sqrt (.sub (.add (.num 1 1) (.div (.num 3 1) (.var 2))) (.div (.num 2 1) (.add (.num 1 1) (.mul (.num 2 1) (.var 2)))))) (.add (.add (.sub (.mul (.num 4 1) (.sqrt (.div (.mul (.mul (.mul (.var 1) (.add (.num 1 1) (.var 1))) (.var 2)) (.add (.neg (.num 1 1)) (.mul (.num 2 1) (.var 2)))) (.mul (.mul (.add (.num 3 1) (.mul (.mul (.num 4 1) (.var 1)) (.add (.num 2 1) (.var 1)))) (.add (.num 1 1) (.var 2))) (.add (.num 1 1) (.mul (.num 2 1) (.var 2))))))) (.sqrt (.div (.mul (.mul (.var 1) (.var 2)) (.add (.neg (.num 1 1)) (.mul (.num 2 1) (.var 2)))) (.mul (.add (.add (.add (.num 3 1) (.mul (.num 11 1) (.var 1))) (.mul (.num 12 1) (.pow (.var 1) 2))) (.mul (.num 4 1) (.pow (.var 1) 3))) (.add (.add (.num 1 1) (.mul (.num 3 1) (.var 2))) (.mul (.num 2 1) (.pow (.var 2) 2))))))) (.sqrt (.div (.mul (.mul (.pow (.var 1) 3) (.var 2)) (.add (.neg (.num 1 1)) (.mul (.num 2 1) (.var 2)))) (.mul (.add (.add (.add (.num 3 1) (.mul (.num 11 1) (.var 1))) (.mul (.num 12 1) (.pow (.var 1) 2))) (.mul (.num 4 1) (.pow (.var 1) 3))) (.add (.add (.num 1 1) (.mul (.num 3 1) (.var 2))) (.mul (.num 2 1) (.pow (.var 2) 2))))))) (.mul (.num 2 1) (.sqrt (.div (.mul (.mul (.pow (.var 1) 5) (.var 2)) (.add (.neg (.num 1 1)) (.mul (.num 2 1) (.var 2)))) (.mul (.add (.add (.add (.num 3 1) (.mul (.num 11 1) (.var 1))) (.mul (.num 12 1) (.pow (.var 1) 2))) (.mul (.num 4 1) (.pow (.var 1) 3))) (.add (.add (.num 1 1) (.mul (.num 3 1) (.var 2))) (.mul (.num 2 1) (.pow (.var 2) 2))))))))) (.add (.num 1 1) (.var 1)),
  .div (.mul (.sqrt (.mul (.add (.num 1 1) (.var 2)) (.add (.num 3 1) (.mul (.num 2 1) (.var 2))))) (.add (.add (.sub (.div (.mul (.mul (.mul (.neg (.num 2 1)) (.hpow (.mul (.mul (.var 1) (.add (.num 1 1) (.var 1))) (.var 2)) 1)) (.pow (.add (.num 1 1) (.var 2)) 2)) (.add (.neg (.num 1 1)) (.mul (.num 2 1) (.var 2)))) (.sqrt (.mul (.mul (.add (.num 1 1) (.mul (.num 2 1) (.var 1))) (.add (.num 1 1) (.var 2))) (.add (.num 1 1) (.mul (.num 2 1) (.var 2)))))) (.div (.mul (.mul (.mul (.mul (.num 2 1) (.hpow (.add (.num 1 1) (.var 1)) 1)) (.add (.neg (.num 1 1)) (.mul (.num 2 1) (.var 1)))) (.hpow (.var 2) 2)) (.pow (.add (.num 1 1) (.var 2)) 2)) (.sqrt (.div (.mul (.mul (.add (.num 1 1) (.mul (.num 2 1) (.var 1))) (.add (.num 1 1) (.var 2))) (.add (.num 1 1) (.mul (.num 2 1) (.var 2)))) (.var 1))))) (.div (.mul (.mul (.mul (.add (.neg (.num 1 1)) (.mul (.num 2 1) (.var 1))) (.hpow (.mul (.add (.num 1 1) (.var 1)) (.var 2)) 1)) (.pow (.add (.num 1 1) (.var 2)) 2)) (.add (.neg (.num 1 1)) (.mul (.num 2 1) (.var 2)))) (.sqrt (.div (.mul (.mul (.add (.num 1 1) (.mul (.num 2 1) (.var 1))) (.add (.num 1 1) (.var 2))) (.add (.num 1 1) (.mul (.num 2 1) (.var 2)))) (.var 1))))) (.mul (.mul (.mul (.num 4 1) (.var 1)) (.var 2)) (.sqrt (.div (.mul (.mul (.var 1) (.pow (.add (.num 1 1) (.var 1)) 3)) (.pow (.add (.var 2) (.pow (.var 2) 2)) 3)) (.mul (.add (.num 1 1) (.mul (.num 2 1) (.var 1))) (.add (.num 1 1) (.mul (.num 2 1) (.var 2))))))))) (.mul (.mul (.var 1) (.hpow (.mul (.add (.num 1 1) (.var 1)) (.var 2)) 1)) (.pow (.add (.num 1 1) (.var 2)) 3)),
  .div (.add (.sub (.sub (.mul (.mul (.mul (.neg (.num 2 1)) (.var 2)) (.add (.num 1 1) (.var 2))) (.sqrt (.mul (.mul (.add (.num 1 1) (.var 1)) (.var 2)) (.add (.num 1 1) (.var 2))))) (.sqrt (.mul (.mul (.add (.num 1 1) (.var 1)) (.pow (.var 2) 5)) (.add (.num 1 1) (.var 2))))) (.sqrt (.mul (.mul (.add (.num 1 1) (.var 1)) (.pow (.var 2) 7)) (.add (.num 1 1) (.var 2))))) (.mul (.mul (.num 2 1) (.var 1)) (.add (.add (.neg (.mul (.mul (.var 2) (.add (.num 1 1) (.var 2))) (.sqrt (.mul (.mul (.add (.num 1 1) (.var 1)) (.var 2)) (.add (.num 1 1) (.var 2)))))) (.sqrt (.mul (.mul (.add (.num 1 1) (.var 1)) (.pow (.var 2) 3)) (.add (.num 1 1) (.var 2))))) (.sqrt (.mul (.mul (.add (.num 1 1) (.var 1)) (.pow (.var 2) 5)) (.add (.num 1 1) (.var 2))))))) (.mul (.mul (.var 2) (.hpow (.add (.num 1 1) (.var 2)) 2)) (.sqrt (.mul (.mul (.mul (.var 1) (.add (.num 1 1) (.var 1))) (.add (.num 1 1) (.mul (.num 2 1) (.var 1)))) (.add (.num 2 1) (.var 2))))),
  .div (.sub (.mul (.neg (.num 3 1)) (.sqrt (.mul (.mul (.mul (.mul (.mul (.mul (.var 1) (.add (.num 1 1) (.var 1))) (.add (.num 1 1) (.mul (.num 2 1) (.var 1)))) (.add (.num 3 1) (.mul (.num 2 1) (.var 1)))) (.var 2)) (.add (.num 1 1) (.var 2))) (.add (.num 1 1) (.mul (.num 2 1) (.var 2)))))) (.mul (.num 2 1) (.sqrt (.mul (.mul (.mul (.mul (.mul (.mul (.pow (.var 1) 3) (.add (.num 1 1) (.var 1))) (.add (.num 1 1) (.mul (.num 2 1) (.var 1)))) (.add (.num 3 1) (.mul (.num 2 1) (.var 1)))) (.var 2)) (.add (.num 1 1) (.var 2))) (.add (.num 1 1) (.mul (.num 2 1) (.var 2))))))) (.mul (.mul (.mul (.mul (.add (.num 1 1) (.var 1)) (.add (.num 3 1) (.mul (.mul (.num 4 1) (.var 1)) (.add (.num 2 1) (.var 1))))) (.pow (.add (.num 1 1) (.var 2)) 2)) (.add (.num 1 1) (.mul (.num 2 1) (.var 2)))) (.sqrt (.div (.var 2) (.add (.add (.num 3 1) (.mul (.num 5 1) (.var 2))) (.mul (.num 2 1) (.pow (.var 2) 2)))))),
  .div (.add (.sub (.mul (.num 6 1) (.sqrt (.mul (.mul (.var 1) (.var 2)) (.add (.num 3 1) (.mul (.num 2 1) (.var 2)))))) (.mul (.num 3 1) (.sqrt (.mul (.mul (.var 1) (.pow (.var 2) 3)) (.add (.num 3 1) (.mul (.num 2 1) (.var 2))))))) (.mul (.sqrt (.mul (.mul (.var 1) (.var 2)) (.add (.num 3 1) (.mul (.num 2 1) (.var 2))))) (.add (.mul (.mul (.mul (.num 2 1) (.var 1)) (.add (.num 1 1) (.var 2))) (.add (.num 2 1) (.var 2))) (.mul (.mul (.num 3 1) (.var 2)) (.add (.num 4 1) (.var 2)))))) (.mul (.pow (.add (.num 1 1) (.var 2)) 2) (.sqrt (.mul (.mul (.mul (.add (.num 1 1) (.var 1)) (.add (.num 3 1) (.mul (.mul (.num 4 1) (.var 1)) (.add (.num 2 1) (.var 1))))) (.add (.num 2 1) (.var 2))) (.add (.num 3 1) (.mul (.num 2 1) (.var 2)))))),
  .neg (.div (.num 1 1) (.mul (.mul (.sqrt (.mul (.var 1) (.add (.num 1 1) (.mul (.num 2 1) (.var 1))))) (.add (.num 1 1) (.var 2))) (.add (.num 1 1) (.mul (.num 2 1) (.var 2))))),
  .div (.add (.add (.mul (.num 3 1) (.sqrt (.mul (.mul (.mul (.var 1) (.add (.num 1 1) (.var 1))) (.add (.num 1 1) (.var 2))) (.add (.num 1 1) (.mul (.num 2 1) (.var 2)))))) (.mul (.num 2 1) (.sqrt (.mul (.mul (.mul (.pow (.var 1) 3) (.add (.num 1 1) (.var 1))) (.add (.num 1 1) (.var 2))) (.add (.num 1 1) (.mul (.num 2 1) (.var 2))))))) (.mul (.var 2) (.add (.sub (.add (.sub (.sub (.mul (.neg (.num 6 1)) (.sqrt (.div (.mul (.mul (.var 1) (.add (.num 1 1) (.var 1))) (.add (.num 1 1) (.mul (.num 2 1) (.var 2)))) (.add (.num 1 1) (.var 2))))) (.mul (.num 4 1) (.sqrt (.div (.mul (.mul (.pow (.var 1) 3) (.add (.num 1 1) (.var 1))) (.add (.num 1 1) (.mul (.num 2 1) (.var 2)))) (.add (.num 1 1) (.var 2)))))) (.mul (.num 3 1) (.sqrt (.div (.mul (.var 1) (.add (.num 1 1) (.var 1))) (.add (.add (.num 1 1) (.mul (.num 3 1) (.var 2))) (.mul (.num 2 1) (.pow (.var 2) 2))))))) (.mul (.mul (.num 6 1) (.var 2)) (.sqrt (.div (.mul (.var 1) (.add (.num 1 1) (.var 1))) (.add (.add (.num 1 1) (.mul (.num 3 1) (.var 2))) (.mul (.num 2 1) (.pow (.var 2) 2))))))) (.mul (.num 2 1) (.sqrt (.div (.mul (.pow (.var 1) 3) (.add (.num 1 1) (.var 1))) (.add (.add (.num 1 1) (.mul (.num 3 1) (.var 2))) (.mul (.num 2 1) (.pow (.var 2) 2))))))) (.mul (.mul (.num 4 1) (.var 2)) (.sqrt (.div (.mul (.pow (.var 1) 3) (.add (.num 1 1) (.var 1))) (.add (.add (.num 1 1) (.mul (.num 3 1) (.var 2))) (.mul (.num 2 1) (.pow (.var 2) 2))))))))) (.mul (.add (.num 1 1) (.var 1)) (.sqrt (.mul (.mul (.add (.num 3 1) (.mul (.mul (.num 4 1) (.var 1)) (.add (.num 2 1) (.var 1)))) (.add (.num 1 1) (.var 2))) (.add (.num 1 1) (.mul (.num 2 1) (.var 2)))))),
  .div (.sub (.mul (.neg (.num 3 1)) (.sqrt (.mul (.var 1) (.add (.num 2 1) (.var 2))))) (.mul (.num 2 1) (.sqrt (.mul (.pow (.var 1) 3) (.add (.num 2 1) (.var 2)))))) (.mul (.mul (.add (.num 1 1) (.var 1)) (.add (.num 1 1) (.var 2))) (.sqrt (.div (.mul (.add (.num 3 1) (.mul (.mul (.num 4 1) (.var 1)) (.add (.num 2 1) (.var 1)))) (.add (.num 2 1) (.var 2))) (.add (.num 1 1) (.var 1))))),
  .div (.add (.add (.add (.add (.mul (.num 27 1) (.sqrt (.div (.mul (.var 1) (.add (.num 1 1) (.var 1))) (.add (.num 1 1) (.var 2))))) (.mul (.num 18 1) (.sqrt (.div (.mul (.pow (.var 1) 3) (.add (.num 1 1) (.var 1))) (.add (.num 1 1) (.var 2)))))) (.mul (.num 3 1) (.sqrt (.mul (.mul (.var 1) (.add (.num 1 1) (.var 1))) (.add (.num 1 1) (.var 2)))))) (.mul (.num 2 1) (.sqrt (.mul (.mul (.pow (.var 1) 3) (.add (.num 1 1) (.var 1))) (.add (.num 1 1) (.var 2)))))) (.mul (.mul (.num 2 1) (.var 2)) (.add (.add (.add (.mul (.num 9 1) (.sqrt (.div (.mul (.var 1) (.add (.num 1 1) (.var 1))) (.add (.num 1 1) (.var 2))))) (.mul (.num 6 1) (.sqrt (.div (.mul (.pow (.var 1) 3) (.add (.num 1 1) (.var 1))) (.add (.num 1 1) (.var 2)))))) (.mul (.num 3 1) (.sqrt (.mul (.mul (.var 1) (.add (.num 1 1) (.var 1))) (.add (.num 1 1) (.var 2)))))) (.mul (.num 2 1) (.sqrt (.mul (.mul (.pow (.var 1) 3) (.add (.num 1 1) (.var 1))) (.add (.num 1 1) (.var 2)))))))) (.mul (.mul (.mul (.add (.num 1 1) (.var 1)) (.sqrt (.div (.add (.num 3 1) (.mul (.mul (.num 4 1) (.var 1)) (.add (.num 2 1) (.var 1)))) (.add (.num 1 1) (.var 2))))) (.add (.num 2 1) (.var 2))) (.add (.num 5 1) (.mul (.num 2 1) (.var 2)))),
  .div (.sub (.mul (.mul (.num 4 1) (.var 1)) (.sqrt (.div (.mul (.add (.num 1 1) (.var 1)) (.add (.neg (.num 3 1)) (.mul (.mul (.num 4 1) (.var 2)) (.add (.num 1 1) (.var 2))))) (.add (.num 1 1) (.mul (.num 2 1) (.var 1)))))) (.mul (.num 3 1) (.sqrt (.mul (.mul (.add (.num 1 1) (.var 1)) (.add (.num 1 1) (.mul (.num 2 1) (.var 1)))) (.add (.neg (.num 3 1)) (.mul (.mul (.num 4 1) (.var 2)) (.add (.num 1 1) (.var 2)))))))) (.mul (.mul (.add (.num 1 1) (.var 1)) (.add (.num 3 1) (.mul (.num 2 1) (.var 1)))) (.add (.num 1 1) (.mul (.num 2 1) (.var 2)))),
  .div (.sqrt (.add (.neg (.num 3 1)) (.mul (.mul (.num 4 1) (.var 2)) (.add (.num 1 1) (.var 2))))) (.add (.num 1 1) (.mul (.num 2 1) (.var 2))),
  .div (.num 1 1) (.mul (.add (.num 1 1) (.var 2)) (.sqrt (.div (.mul (.mul (.add (.num 1 1) (.var 1)) (.add (.num 1 1) (.mul (.num 2 1) (.var 1)))) (.add (.num 1 1) (.mul (.num 2 1) (.var 2)))) (.add (.num 3 1) (.mul (.num 2 1) (.var 2)))))),
  .neg (.div (.sqrt (.div (.mul (.var 2) (.add (.num 2 1) (.var 2))) (.add (.add (.num 1 1) (.mul (.num 3 1) (.var 1))) (.mul (.num 2 1) (.pow (.var 1) 2))))) (.add (.num 1 1) (.var 2))),
  .neg (.div (.sqrt (.add (.num 3 1) (.mul (.mul (.num 4 1) (.var 2)) (.add (.num 2 1) (.var 2))))) (.mul (.add (.num 1 1) (.var 2)) (.add (.num 1 1) (.mul (.num 2 1) (.var 2))))),
  .neg (.div (.num 1 1) (.mul (.sqrt (.add (.add (.num 1 1) (.mul (.num 3 1) (.var 1))) (.mul (.num 2 1) (.pow (.var 1) 2)))) (.add (.add (.num 1 1) (.mul (.num 3 1) (.var 2))) (.mul (.num 2 1) (.pow (.var 2) 2))))),
  .div (.num 1 1) (.add (.add (.num 1 1) (.mul (.num 3 1) (.var 2))) (.mul (.num 2 1) (.pow (.var 2) 2))),
  .div (.mul (.neg (.num 2 1)) (.sqrt (.div (.mul (.mul (.var 1) (.add (.num 1 1) (.var 1))) (.add (.neg (.num 9 1)) (.mul (.num 4 1) (.pow (.var 2) 2)))) (.add (.neg (.num 1 1)) (.mul (.num 4 1) (.pow (.var 2) 2)))))) (.add (.num 1 1) (.mul (.num 2 1) (.var 1))),
  .mul (.mul (.mul (.num 2 1) (.sqrt (.num 2 1))) (.sqrt (.div (.mul (.add (.num 1 1) (.var 1)) (.add (.neg (.num 3 1)) (.mul (.mul (.num 4 1) (.var 2)) (.add (.num 1 1) (.var 2))))) (.add (.num 1 1) (.mul (.num 2 1) (.var 1)))))) (.add (.sub (.sqrt (.div (.var 1) (.mul (.mul (.add (.num 1 1) (.mul (.num 2 1) (.var 1))) (.var 2)) (.add (.add (.sub (.neg (.num 1 1)) (.var 2)) (.mul (.num 4 1) (.pow (.var 2) 2))) (.mul (.num 4 1) (.pow (.var 2) 3)))))) (.mul (.mul (.num 2 1) (.var 2)) (.sqrt (.div (.var 1) (.mul (.mul (.add (.num 1 1) (.mul (.num 2 1) (.var 1))) (.var 2)) (.add (.add (.sub (.neg (.num 1 1)) (.var 2)) (.mul (.num 4 1) (.pow (.var 2) 2))) (.mul (.num 4 1) (.pow (.var 2) 3)))))))) (.mul (.num 2 1) (.sqrt (.div (.mul (.var 1) (.var 2)) (.mul (.add (.num 1 1) (.mul (.num 2 1) (.var 1))) (.add (.add (.sub (.neg (.num 1 1)) (.var 2)) (.mul (.num 4 1) (.pow (.var 2) 2))) (.mul (.num 4 1) (.pow (.var 2) 3)))))))),
  .mul (.mul (.neg (.num 2 1)) (.sqrt (.div (.mul (.add (.num 1 1) (.var 1)) (.add (.num 3 1) (.mul (.num 2 1) (.var 2)))) (.mul (.add (.num 1 1) (.mul (.num 2 1) (.var 1))) (.add (.var 2) (.mul (.num 2 1) (.pow (.var 2) 2))))))) (.add (.add (.mul (.num 6 1) (.sqrt (.div (.mul (.var 1) (.add (.sub (.num 1 1) (.mul (.num 3 1) (.var 2))) (.mul (.num 2 1) (.pow (.var 2) 2)))) (.mul (.add (.num 1 1) (.mul (.num 2 1) (.var 1))) (.add (.add (.add (.num 2 1) (.mul (.num 7 1) (.var 2))) (.mul (.num 7 1) (.pow (.var 2) 2))) (.mul (.num 2 1) (.pow (.var 2) 3))))))) (.mul (.num 4 1) (.sqrt (.div (.mul (.var 1) (.add (.neg (.num 1 1)) (.mul (.num 2 1) (.var 2)))) (.mul (.add (.num 1 1) (.mul (.num 2 1) (.var 1))) (.add (.add (.sub (.neg (.num 2 1)) (.mul (.num 5 1) (.var 2))) (.mul (.num 5 1) (.pow (.var 2) 3))) (.mul (.num 2 1) (.pow (.var 2) 4)))))))) (.mul (.mul (.add (.neg (.num 5 1)) (.var 2)) (.var 2)) (.sqrt (.div (.mul (.var 1) (.add (.neg (.num 1 1)) (.mul (.num 2 1) (.var 2)))) (.mul (.add (.num 1 1) (.mul (.num 2 1) (.var 1))) (.add (.add (.sub (.neg (.num 2 1)) (.mul (.num 5 1) (.var 2))) (.mul (.num 5 1) (.pow (.var 2) 3))) (.mul (.num 2 1) (.pow (.var 2) 4)))))))),
  .div (.mul (.mul (.neg (.num 2 1)) (.sqrt (.num 6 1))) (.sqrt (.neg (.div (.mul (.var 1) (.add (.num 1 1) (.var 1))) (.sub (.sub (.add (.var 2) (.pow (.var 2) 2)) (.mul (.num 4 1) (.pow (.var 2) 3))) (.mul (.num 4 1) (.pow (.var 2) 4))))))) (.add (.num 1 1) (.mul (.num 2 1) (.var 1))),
  .mul (.mul (.mul (.neg (.num 2 1)) (.sqrt (.num 3 1))) (.sqrt (.div (.mul (.mul (.add (.num 1 1) (.var 1)) (.add (.num 1 1) (.var 2))) (.add (.num 3 1) (.mul (.num 2 1) (.var 2)))) (.add (.num 1 1) (.mul (.num 2 1) (.var 1)))))) (.sub (.add (.div (.mul (.add (.neg (.num 4 1)) (.var 2)) (.hpow (.add (.neg (.num 1 1)) (.mul (.num 2 1) (.var 2))) 1)) (.mul (.add (.num 1 1) (.var 2)) (.sqrt (.div (.mul (.mul (.mul (.mul (.mul (.add (.num 1 1) (.mul (.num 2 1) (.var 1))) (.var 2)) (.add (.num 1 1) (.var 2))) (.add (.num 2 1) (.var 2))) (.add (.num 1 1) (.mul (.num 2 1) (.var 2)))) (.add (.num 3 1) (.mul (.num 2 1) (.var 2)))) (.var 1))))) (.mul (.num 6 1) (.sqrt (.div (.mul (.mul (.var 1) (.pow (.add (.neg (.num 1 1)) (.var 2)) 2)) (.add (.neg (.num 1 1)) (.mul (.num 2 1) (.var 2)))) (.mul (.mul (.mul (.add (.num 1 1) (.mul (.num 2 1) (.var 1))) (.var 2)) (.pow (.add (.num 1 1) (.var 2)) 3)) (.add (.add (.add (.num 6 1) (.mul (.num 19 1) (.var 2))) (.mul (.num 16 1) (.pow (.var 2) 2))) (.mul (.num 4 1) (.pow (.var 2) 3)))))))) (.mul (.mul (.mul (.num 2 1) (.add (.neg (.num 1 1)) (.var 2))) (.add (.neg (.num 1 1)) (.mul (.num 2 1) (.var 2)))) (.sqrt (.div (.mul (.var 1) (.var 2)) (.mul (.mul (.add (.num 1 1) (.mul (.num 2 1) (.var 1))) (.pow (.add (.num 1 1) (.var 2)) 3)) (.add (.add (.add (.sub (.neg (.num 6 1)) (.mul (.num 7 1) (.var 2))) (.mul (.num 22 1) (.pow (.var 2) 2))) (.mul (.num 28 1) (.pow (.var 2) 3))) (.mul (.num 8 1) (.pow (.var 2) 4)))))))),
  .div (.mul (.mul (.neg (.num 2 1)) (.sqrt (.div (.add (.num 1 1) (.var 1)) (.add (.num 1 1) (.mul (.num 2 1) (.var 1)))))) (.add (.add (.mul (.num 36 1) (.sqrt (.div (.mul (.mul (.var 1) (.var 2)) (.add (.neg (.num 1 1)) (.mul (.num 2 1) (.var 2)))) (.mul (.add (.num 1 1) (.mul (.num 2 1) (.var 1))) (.add (.add (.add (.add (.num 30 1) (.mul (.num 107 1) (.var 2))) (.mul (.num 118 1) (.pow (.var 2) 2))) (.mul (.num 52 1) (.pow (.var 2) 3))) (.mul (.num 8 1) (.pow (.var 2) 4))))))) (.mul (.num 26 1) (.sqrt (.div (.mul (.var 1) (.var 2)) (.mul (.add (.num 1 1) (.mul (.num 2 1) (.var 1))) (.add (.add (.add (.add (.sub (.neg (.num 30 1)) (.mul (.num 47 1) (.var 2))) (.mul (.num 96 1) (.pow (.var 2) 2))) (.mul (.num 184 1) (.pow (.var 2) 3))) (.mul (.num 96 1) (.pow (.var 2) 4))) (.mul (.num 16 1) (.pow (.var 2) 5)))))))) (.mul (.mul (.var 2) (.sqrt (.div (.mul (.var 1) (.var 2)) (.mul (.add (.num 1 1) (.mul (.num 2 1) (.var 1))) (.add (.add (.add (.add (.sub (.neg (.num 30 1)) (.mul (.num 47 1) (.var 2))) (.mul (.num 96 1) (.pow (.var 2) 2))) (.mul (.num 184 1) (.pow (.var 2) 3))) (.mul (.num 96 1) (.pow (.var 2) 4))) (.mul (.num 16 1) (.pow (.var 2) 5))))))) (.add (.neg (.num 61 1)) (.mul (.mul (.num 4 1) (.var 2)) (.add (.num 4 1) (.var 2))))))) (.add (.num 1 1) (.var 2)),
  .div (.mul (.neg (.num 6 1)) (.sqrt (.mul (.var 1) (.add (.num 1 1) (.var 1))))) (.mul (.add (.num 1 1) (.mul (.num 2 1) (.var 1))) (.add (.add (.num 1 1) (.mul (.num 3 1) (.var 2))) (.mul (.num 2 1) (.pow (.var 2) 2)))),
  .mul (.mul (.mul (.mul (.neg (.num 2 1)) (.sqrt (.num 3 1))) (.var 2)) (.sqrt (.div (.add (.num 1 1) (.var 1)) (.mul (.mul (.mul (.add (.num 1 1) (.mul (.num 2 1) (.var 1))) (.var 2)) (.pow (.add (.num 2 1) (.var 2)) 3)) (.add (.add (.num 3 1) (.mul (.num 5 1) (.var 2))) (.mul (.num 2 1) (.pow (.var 2) 2))))))) (.add (.add (.sub (.sqrt (.div (.mul (.mul (.mul (.var 1) (.add (.num 1 1) (.var 2))) (.add (.num 1 1) (.mul (.num 2 1) (.var 2)))) (.add (.num 3 1) (.mul (.num 2 1) (.var 2)))) (.mul (.add (.num 1 1) (.mul (.num 2 1) (.var 1))) (.add (.num 5 1) (.mul (.num 2 1) (.var 2)))))) (.mul (.num 12 1) (.sqrt (.div (.mul (.var 1) (.add (.num 3 1) (.mul (.num 2 1) (.var 2)))) (.mul (.add (.num 1 1) (.mul (.num 2 1) (.var 1))) (.add (.add (.add (.num 5 1) (.mul (.num 17 1) (.var 2))) (.mul (.num 16 1) (.pow (.var 2) 2))) (.mul (.num 4 1) (.pow (.var 2) 3)))))))) (.sqrt (.div (.mul (.var 1) (.add (.num 3 1) (.mul (.mul (.num 4 1) (.var 2)) (.add (.num 2 1) (.var 2))))) (.mul (.mul (.add (.num 1 1) (.mul (.num 2 1) (.var 1))) (.add (.num 1 1) (.var 2))) (.add (.num 5 1) (.mul (.num 2 1) (.var 2))))))) (.mul (.var 2) (.add (.sub (.sub (.mul (.neg (.num 2 1)) (.sqrt (.div (.mul (.mul (.mul (.var 1) (.add (.num 1 1) (.var 2))) (.add (.num 1 1) (.mul (.num 2 1) (.var 2)))) (.add (.num 3 1) (.mul (.num 2 1) (.var 2)))) (.mul (.add (.num 1 1) (.mul (.num 2 1) (.var 1))) (.add (.num 5 1) (.mul (.num 2 1) (.var 2))))))) (.mul (.num 3 1) (.sqrt (.div (.mul (.var 1) (.add (.num 3 1) (.mul (.num 2 1) (.var 2)))) (.mul (.add (.num 1 1) (.mul (.num 2 1) (.var 1))) (.add (.add (.add (.num 5 1) (.mul (.num 17 1) (.var 2))) (.mul (.num 16 1) (.pow (.var 2) 2))) (.mul (.num 4 1) (.pow (.var 2) 3)))))))) (.mul (.num 9 1) (.sqrt (.div (.mul (.var 1) (.add (.num 3 1) (.mul (.mul (.num 4 1) (.var 2)) (.add (.num 2 1) (.var 2))))) (.mul (.mul (.add (.num 1 1) (.mul (.num 2 1) (.var 1))) (.add (.num 1 1) (.var 2))) (.add (.num 5 1) (.mul (.num 2 1) (.var 2)))))))) (.mul (.mul (.num 2 1) (.var 2)) (.add (.mul (.num 9 1) (.sqrt (.div (.mul (.var 1) (.add (.num 3 1) (.mul (.num 2 1) (.var 2)))) (.mul (.add (.num 1 1) (.mul (.num 2 1) (.var 1))) (.add (.add (.add (.num 5 1) (.mul (.num 17 1) (.var 2))) (.mul (.num 16 1) (.pow (.var 2) 2))) (.mul (.num 4 1) (.pow (.var 2) 3))))))) (.sqrt (.div (.mul (.var 1) (.add (.num 3 1) (.mul (.mul (.num 4 1) (.var 2)) (.add (.num 2 1) (.var 2))))) (.mul (.mul (.add (.num 1 1) (.mul (.num 2 1) (.var 1))) (.add (.num 1 1) (.var 2))) (.add (.num 5 1) (.mul (.num 2 1) (.var 2))))))))))),
  .div (.mul (.mul (.mul (.mul (.neg (.num 2 1)) (.var 1)) (.add (.num 1 1) (.var 1))) (.var 2)) (.add (.num 3 1) (.var 2))) (.mul (.add (.num 1 1) (.mul (.num 2 1) (.var 1))) (.sqrt (.mul (.mul (.mul (.mul (.mul (.var 1) (.add (.num 1 1) (.var 1))) (.var 2)) (.add (.num 1 1) (.var 2))) (.add (.num 2 1) (.var 2))) (.add (.num 3 1) (.var 2))))),
  .div (.mul (.mul (.neg (.num 2 1)) (.sqrt (.num 6 1))) (.sqrt (.div (.mul (.var 1) (.add (.num 1 1) (.var 1))) (.add (.add (.add (.add (.num 6 1) (.mul (.num 25 1) (.var 2))) (.mul (.num 35 1) (.pow (.var 2) 2))) (.mul (.num 20 1) (.pow (.var 2) 3))) (.mul (.num 4 1) (.pow (.var 2) 4)))))) (.add (.num 1 1) (.mul (.num 2 1) (.var 1))),
  .div (.mul (.mul (.mul (.num 2 1) (.sqrt (.num 2 1))) (.sqrt (.div (.mul (.mul (.add (.num 1 1) (.var 1)) (.add (.num 1 1) (.var 2))) (.add (.num 3 1) (.mul (.num 2 1) (.var 2)))) (.mul (.add (.num 1 1) (.mul (.num 2 1) (.var 1))) (.add (.num 3 1) (.var 2)))))) (.add (.mul (.num 5 1) (.add (.sqrt (.div (.mul (.var 1) (.add (.num 3 1) (.mul (.num 2 1) (.var 2)))) (.mul (.add (.num 1 1) (.mul (.num 2 1) (.var 1))) (.add (.num 3 1) (.var 2))))) (.mul (.num 3 1) (.sqrt (.div (.var 1) (.mul (.add (.num 1 1) (.mul (.num 2 1) (.var 1))) (.add (.add (.num 9 1) (.mul (.num 9 1) (.var 2))) (.mul (.num 2 1) (.pow (.var 2) 2))))))))) (.mul (.var 2) (.sub (.sub (.sub (.add (.mul (.num 15 1) (.sqrt (.div (.mul (.var 1) (.add (.num 3 1) (.mul (.num 2 1) (.var 2)))) (.mul (.add (.num 1 1) (.mul (.num 2 1) (.var 1))) (.add (.num 3 1) (.var 2)))))) (.mul (.mul (.num 10 1) (.var 2)) (.sqrt (.div (.mul (.var 1) (.add (.num 3 1) (.mul (.num 2 1) (.var 2)))) (.mul (.add (.num 1 1) (.mul (.num 2 1) (.var 1))) (.add (.num 3 1) (.var 2))))))) (.mul (.num 18 1) (.sqrt (.div (.var 1) (.mul (.add (.num 1 1) (.mul (.num 2 1) (.var 1))) (.add (.add (.num 9 1) (.mul (.num 9 1) (.var 2))) (.mul (.num 2 1) (.pow (.var 2) 2)))))))) (.mul (.mul (.num 45 1) (.var 2)) (.sqrt (.div (.var 1) (.mul (.add (.num 1 1) (.mul (.num 2 1) (.var 1))) (.add (.add (.num 9 1) (.mul (.num 9 1) (.var 2))) (.mul (.num 2 1) (.pow (.var 2) 2)))))))) (.mul (.mul (.num 18 1) (.pow (.var 2) 2)) (.sqrt (.div (.var 1) (.mul (.add (.num 1 1) (.mul (.num 2 1) (.var 1))) (.add (.add (.num 9 1) (.mul (.num 9 1) (.var 2))) (.mul (.num 2 1) (.pow (.var 2) 2))))))))))) (.mul (.mul (.add (.num 1 1) (.var 2)) (.hpow (.add (.num 2 1) (.var 2)) 1)) (.add (.num 5 1) (.mul (.num 2 1) (.var 2)))),
  .mul (.mul (.neg (.num 2 1)) (.sqrt (.div (.add (.num 1 1) (.var 1)) (.mul (.mul (.mul (.mul (.pow (.add (.num 1 1) (.mul (.num 2 1) (.var 1))) 2) (.add (.num 2 1) (.var 2))) (.pow (.add (.num 3 1) (.var 2)) 2)) (.pow (.add (.num 5 1) (.mul (.num 2 1) (.var 2))) 2)) (.pow (.add (.num 7 1) (.mul (.num 2 1) (.var 2))) 2))))) (.add (.mul (.num 3 1) (.add (.mul (.num 68 1) (.sqrt (.div (.var 1) (.add (.num 2 1) (.var 2))))) (.sqrt (.mul (.var 1) (.add (.num 2 1) (.var 2)))))) (.mul (.var 2) (.add (.add (.mul (.num 294 1) (.sqrt (.div (.var 1) (.add (.num 2 1) (.var 2))))) (.mul (.num 11 1) (.sqrt (.mul (.var 1) (.add (.num 2 1) (.var 2)))))) (.mul (.mul (.num 4 1) (.var 2)) (.add (.add (.mul (.num 36 1) (.sqrt (.div (.var 1) (.add (.num 2 1) (.var 2))))) (.mul (.num 3 1) (.sqrt (.mul (.var 1) (.add (.num 2 1) (.var 2)))))) (.mul (.var 2) (.add (.mul (.num 6 1) (.sqrt (.div (.var 1) (.add (.num 2 1) (.var 2))))) (.sqrt (.mul (.var 1) (.add (.num 2 1) (.var 2))))))))))),
  .div (.sqrt (.div (.sub (.num 9 1) (.mul (.num 4 1) (.pow (.var 2) 2))) (.sub (.num 1 1) (.mul (.num 4 1) (.pow (.var 2) 2))))) (.add (.num 1 1) (.mul (.num 2 1) (.var 1))),
  .neg (.sqrt (.div (.sub (.num 9 1) (.mul (.num 4 1) (.pow (.var 2) 2))) (.sub (.num 1 1) (.mul (.num 4 1) (.pow (.var 2) 2))))),
  .neg (.div (.sqrt (.sub (.add (.num 2 1) (.div (.num 6 1) (.var 2))) (.div (.num 4 1) (.add (.num 1 1) (.mul (.num 2 1) (.var 2)))))) (.mul (.add (.num 1 1) (.mul (.num 2 1) (.var 1))) (.add (.num 1 1) (.var 2)))),
  .div (.mul (.mul (.add (.add (.neg (.num 2 1)) (.var 2)) (.pow (.var 2) 2)) (.add (.mul (.mul (.neg (.num 2 1)) (.var 1)) (.sqrt (.div (.add (.num 1 1) (.var 1)) (.mul (.pow (.add (.num 1 1) (.mul (.num 2 1) (.var 1))) 3) (.add (.add (.num 2 1) (.mul (.num 5 1) (.var 2))) (.mul (.num 2 1) (.pow (.var 2) 2))))))) (.sqrt (.div (.add (.num 1 1) (.var 1)) (.mul (.add (.num 1 1) (.mul (.num 2 1) (.var 1))) (.add (.add (.num 2 1) (.mul (.num 5 1) (.var 2))) (.mul (.num 2 1) (.pow (.var 2) 2)))))))) (.sqrt (.div (.mul (.mul (.add (.num 1 1) (.var 1)) (.add (.num 1 1) (.mul (.num 2 1) (.var 1)))) (.add (.neg (.num 3 1)) (.mul (.var 2) (.add (.num 1 1) (.mul (.mul (.num 4 1) (.var 2)) (.add (.num 2 1) (.var 2))))))) (.mul (.mul (.add (.neg (.num 1 1)) (.var 2)) (.var 2)) (.add (.num 1 1) (.mul (.num 2 1) (.var 2))))))) (.mul (.add (.num 1 1) (.var 1)) (.add (.num 1 1) (.var 2))),
  .div (.mul (.sqrt (.num 2 1)) (.add (.num 3 1) (.mul (.num 2 1) (.var 2)))) (.sqrt (.mul (.mul (.mul (.var 2) (.add (.num 1 1) (.var 2))) (.add (.num 1 1) (.mul (.num 2 1) (.var 2)))) (.add (.num 3 1) (.mul (.num 2 1) (.var 2))))),
  .neg (.div (.mul (.mul (.add (.add (.neg (.num 2 1)) (.var 2)) (.pow (.var 2) 2)) (.add (.sqrt (.div (.mul (.add (.num 1 1) (.var 1)) (.add (.num 1 1) (.mul (.num 2 1) (.var 1)))) (.mul (.mul (.add (.num 3 1) (.mul (.num 2 1) (.var 1))) (.add (.num 2 1) (.var 2))) (.add (.num 1 1) (.mul (.num 2 1) (.var 2)))))) (.mul (.num 2 1) (.sqrt (.div (.add (.num 1 1) (.var 1)) (.mul (.mul (.add (.num 3 1) (.mul (.mul (.num 4 1) (.var 1)) (.add (.num 2 1) (.var 1)))) (.add (.num 2 1) (.var 2))) (.add (.num 1 1) (.mul (.num 2 1) (.var 2))))))))) (.sqrt (.div (.mul (.mul (.add (.num 1 1) (.var 1)) (.add (.num 1 1) (.mul (.num 2 1) (.var 1)))) (.add (.neg (.num 3 1)) (.mul (.var 2) (.add (.num 1 1) (.mul (.mul (.num 4 1) (.var 2)) (.add (.num 2 1) (.var 2))))))) (.mul (.mul (.mul (.add (.num 3 1) (.mul (.num 2 1) (.var 1))) (.add (.neg (.num 1 1)) (.var 2))) (.var 2)) (.add (.num 1 1) (.mul (.num 2 1) (.var 2))))))) (.mul (.add (.num 1 1) (.var 1)) (.add (.num 1 1) (.var 2)))),
  .div (.sqrt (.num 6 1)) (.mul (.add (.num 1 1) (.mul (.num 2 1) (.var 1))) (.sqrt (.mul (.mul (.mul (.var 2) (.add (.num 1 1) (.var 2))) (.add (.neg (.num 1 1)) (.mul (.num 2 1) (.var 2)))) (.add (.num 1 1) (.mul (.num 2 1) (.var 2)))))),
  .mul (.mul (.sqrt (.num 2 1)) (.sqrt (.mul (.mul (.add (.num 1 1) (.var 1)) (.add (.num 1 1) (.var 2))) (.add (.num 3 1) (.mul (.num 2 1) (.var 2)))))) (.add (.add (.sub (.div (.mul (.mul (.sqrt (.num 3 2)) (.add (.neg (.num 4 1)) (.var 2))) (.add (.neg (.num 1 1)) (.mul (.num 2 1) (.var 2)))) (.mul (.add (.num 1 1) (.var 2)) (.sqrt (.div (.mul (.mul (.mul (.mul (.mul (.add (.num 1 1) (.var 1)) (.var 2)) (.add (.num 1 1) (.var 2))) (.add (.num 2 1) (.var 2))) (.add (.num 1 1) (.mul (.num 2 1) (.var 2)))) (.add (.num 3 1) (.mul (.num 2 1) (.var 2)))) (.add (.neg (.num 1 1)) (.mul (.num 2 1) (.var 2))))))) (.div (.mul (.mul (.mul (.sqrt (.num 6 1)) (.add (.neg (.num 1 1)) (.var 2))) (.var 2)) (.add (.neg (.num 1 1)) (.mul (.num 2 1) (.var 2)))) (.sqrt (.mul (.mul (.mul (.mul (.mul (.mul (.add (.num 1 1) (.var 1)) (.var 2)) (.pow (.add (.num 1 1) (.var 2)) 3)) (.add (.num 2 1) (.var 2))) (.add (.neg (.num 1 1)) (.mul (.num 2 1) (.var 2)))) (.add (.num 1 1) (.mul (.num 2 1) (.var 2)))) (.add (.num 3 1) (.mul (.num 2 1) (.var 2))))))) (.div (.mul (.mul (.num 3 1) (.sqrt (.num 6 1))) (.sqrt (.div (.mul (.pow (.add (.neg (.num 1 1)) (.var 2)) 2) (.add (.neg (.num 1 1)) (.mul (.num 2 1) (.var 2)))) (.mul (.mul (.mul (.add (.num 1 1) (.var 1)) (.var 2)) (.pow (.add (.num 1 1) (.var 2)) 3)) (.add (.add (.add (.num 6 1) (.mul (.num 19 1) (.var 2))) (.mul (.num 16 1) (.pow (.var 2) 2))) (.mul (.num 4 1) (.pow (.var 2) 3))))))) (.add (.num 1 1) (.mul (.num 2 1) (.var 1))))) (.mul (.mul (.mul (.sqrt (.num 6 1)) (.sqrt (.div (.var 1) (.add (.num 1 1) (.mul (.num 2 1) (.var 1)))))) (.add (.neg (.num 1 1)) (.mul (.num 2 1) (.var 2)))) (.add (.div (.sub (.num 4 1) (.var 2)) (.mul (.add (.num 1 1) (.var 2)) (.sqrt (.div (.mul (.mul (.mul (.mul (.mul (.mul (.add (.num 1 1) (.var 1)) (.add (.num 1 1) (.mul (.num 2 1) (.var 1)))) (.var 2)) (.add (.num 1 1) (.var 2))) (.add (.num 2 1) (.var 2))) (.add (.num 1 1) (.mul (.num 2 1) (.var 2)))) (.add (.num 3 1) (.mul (.num 2 1) (.var 2)))) (.mul (.var 1) (.add (.neg (.num 1 1)) (.mul (.num 2 1) (.var 2)))))))) (.mul (.mul (.mul (.num 2 1) (.add (.neg (.num 1 1)) (.var 2))) (.var 2)) (.sqrt (.div (.var 1) (.mul (.mul (.mul (.add (.add (.num 1 1) (.mul (.num 3 1) (.var 1))) (.mul (.num 2 1) (.pow (.var 1) 2))) (.var 2)) (.pow (.add (.num 1 1) (.var 2)) 3)) (.add (.add (.add (.sub (.neg (.num 6 1)) (.mul (.num 7 1) (.var 2))) (.mul (.num 22 1) (.pow (.var 2) 2))) (.mul (.num 28 1) (.pow (.var 2) 3))) (.mul (.num 8 1) (.pow (.var 2) 4)))))))))),
  .div (.add (.mul (.mul (.var 2) (.add (.neg (.num 9 1)) (.mul (.num 2 1) (.var 2)))) (.sqrt (.mul (.mul (.mul (.mul (.mul (.mul (.add (.num 1 1) (.var 1)) (.var 2)) (.add (.num 1 1) (.var 2))) (.add (.num 2 1) (.var 2))) (.add (.neg (.num 1 1)) (.mul (.num 2 1) (.var 2)))) (.add (.num 1 1) (.mul (.num 2 1) (.var 2)))) (.add (.num 5 1) (.mul (.num 2 1) (.var 2)))))) (.mul (.num 2 1) (.add (.mul (.num 5 1) (.sqrt (.mul (.mul (.mul (.mul (.mul (.mul (.add (.num 1 1) (.var 1)) (.var 2)) (.add (.num 1 1) (.var 2))) (.add (.num 2 1) (.var 2))) (.add (.neg (.num 1 1)) (.mul (.num 2 1) (.var 2)))) (.add (.num 1 1) (.mul (.num 2 1) (.var 2)))) (.add (.num 5 1) (.mul (.num 2 1) (.var 2)))))) (.mul (.num 9 1) (.sqrt (.mul (.mul (.mul (.mul (.mul (.mul (.add (.num 1 1) (.var 1)) (.pow (.var 2) 3)) (.add (.num 1 1) (.var 2))) (.add (.num 2 1) (.var 2))) (.add (.neg (.num 1 1)) (.mul (.num 2 1) (.var 2)))) (.add (.num 1 1) (.mul (.num 2 1) (.var 2)))) (.add (.num 5 1) (.mul (.num 2 1) (.var 2))))))))) (.mul (.mul (.mul (.mul (.mul (.add (.num 1 1) (.mul (.num 2 1) (.var 1))) (.add (.num 1 1) (.var 2))) (.add (.num 2 1) (.var 2))) (.add (.num 1 1) (.mul (.num 2 1) (.var 2)))) (.sqrt (.mul (.mul (.add (.num 1 1) (.var 1)) (.add (.num 1 1) (.var 2))) (.add (.num 3 1) (.mul (.num 2 1) (.var 2)))))) (.add (.num 5 1) (.mul (.num 2 1) (.var 2)))),
  .neg (.div (.sqrt (.num 6 1)) (.sqrt (.mul (.mul (.var 2) (.add (.num 1 1) (.var 2))) (.add (.neg (.num 1 1)) (.mul (.num 4 1) (.pow (.var 2) 2)))))),
  .div (.mul (.sqrt (.num 3 1)) (.sqrt (.add (.add (.sub (.neg (.num 1 1)) (.div (.num 2 1) (.var 2))) (.mul (.num 8 1) (.var 2))) (.mul (.num 4 1) (.pow (.var 2) 2))))) (.add (.add (.num 1 1) (.mul (.num 3 1) (.var 2))) (.mul (.num 2 1) (.pow (.var 2) 2))),
  .div (.sub (.add (.sub (.sub (.sub (.add (.mul (.neg (.num 80 1)) (.sqrt (.div (.mul (.add (.num 3 1) (.mul (.num 2 1) (.var 1))) (.var 2)) (.add (.neg (.num 1 1)) (.mul (.num 2 1) (.var 2)))))) (.mul (.num 205 1) (.sqrt (.div (.mul (.add (.num 3 1) (.mul (.num 2 1) (.var 1))) (.pow (.var 2) 3)) (.add (.neg (.num 1 1)) (.mul (.num 2 1) (.var 2))))))) (.mul (.num 88 1) (.sqrt (.div (.mul (.add (.num 3 1) (.mul (.num 2 1) (.var 1))) (.pow (.var 2) 5)) (.add (.neg (.num 1 1)) (.mul (.num 2 1) (.var 2))))))) (.mul (.num 4 1) (.sqrt (.div (.mul (.add (.num 3 1) (.mul (.num 2 1) (.var 1))) (.pow (.var 2) 7)) (.add (.neg (.num 1 1)) (.mul (.num 2 1) (.var 2))))))) (.mul (.num 110 1) (.sqrt (.mul (.mul (.add (.num 3 1) (.mul (.num 2 1) (.var 1))) (.var 2)) (.add (.neg (.num 1 1)) (.mul (.num 2 1) (.var 2))))))) (.mul (.mul (.mul (.num 2 1) (.sub (.num 9 1) (.mul (.num 2 1) (.var 2)))) (.var 2)) (.sqrt (.mul (.mul (.add (.num 3 1) (.mul (.num 2 1) (.var 1))) (.var 2)) (.add (.neg (.num 1 1)) (.mul (.num 2 1) (.var 2))))))) (.mul (.mul (.num 2 1) (.var 1)) (.add (.add (.add (.sub (.mul (.num 26 1) (.sqrt (.div (.mul (.add (.num 3 1) (.mul (.num 2 1) (.var 1))) (.var 2)) (.add (.neg (.num 1 1)) (.mul (.num 2 1) (.var 2)))))) (.mul (.num 61 1) (.sqrt (.div (.mul (.add (.num 3 1) (.mul (.num 2 1) (.var 1))) (.pow (.var 2) 3)) (.add (.neg (.num 1 1)) (.mul (.num 2 1) (.var 2))))))) (.mul (.num 16 1) (.sqrt (.div (.mul (.add (.num 3 1) (.mul (.num 2 1) (.var 1))) (.pow (.var 2) 5)) (.add (.neg (.num 1 1)) (.mul (.num 2 1) (.var 2))))))) (.mul (.num 4 1) (.sqrt (.div (.mul (.add (.num 3 1) (.mul (.num 2 1) (.var 1))) (.pow (.var 2) 7)) (.add (.neg (.num 1 1)) (.mul (.num 2 1) (.var 2))))))) (.mul (.num 36 1) (.sqrt (.mul (.mul (.add (.num 3 1) (.mul (.num 2 1) (.var 1))) (.var 2)) (.add (.neg (.num 1 1)) (.mul (.num 2 1) (.var 2))))))))) (.mul (.mul (.hpow (.add (.num 3 1) (.mul (.num 2 1) (.var 1))) 1) (.add (.num 1 1) (.var 2))) (.sqrt (.mul (.mul (.mul (.add (.num 2 1) (.var 2)) (.add (.num 1 1) (.mul (.num 2 1) (.var 2)))) (.add (.num 3 1) (.mul (.num 2 1) (.var 2)))) (.add (.num 5 1) (.mul (.num 2 1) (.var 2)))))),
  .div (.num 3 1) (.mul (.add (.num 1 1) (.mul (.num 2 1) (.var 1))) (.add (.add (.num 1 1) (.mul (.num 3 1) (.var 2))) (.mul (.num 2 1) (.pow (.var 2) 2)))),
  .neg (.div (.mul (.mul (.sqrt (.num 3 1)) (.add (.num 5 1) (.mul (.num 2 1) (.var 2)))) (.sqrt (.div (.var 2) (.add (.add (.add (.num 10 1) (.mul (.num 29 1) (.var 2))) (.mul (.num 20 1) (.pow (.var 2) 2))) (.mul (.num 4 1) (.pow (.var 2) 3)))))) (.mul (.add (.num 1 1) (.mul (.num 2 1) (.var 1))) (.add (.num 1 1) (.var 2)))),
  .div (.sqrt (.div (.mul (.var 2) (.add (.num 3 1) (.var 2))) (.add (.add (.num 2 1) (.mul (.num 3 1) (.var 2))) (.pow (.var 2) 2)))) (.add (.num 1 1) (.mul (.num 2 1) (.var 1))),
  .div (.neg (.num 3 1)) (.add (.add (.num 1 1) (.mul (.num 3 1) (.var 2))) (.mul (.num 2 1) (.pow (.var 2) 2))),
  .div (.mul (.sqrt (.num 3 1)) (.add (.add (.add (.add (.add (.add (.add (.add (.mul (.num 1800 1) (.sqrt (.mul (.mul (.pow (.var 2) 3) (.add (.num 2 1) (.var 2))) (.add (.num 5 1) (.mul (.num 2 1) (.var 2)))))) (.mul (.num 8340 1) (.sqrt (.mul (.mul (.pow (.var 2) 5) (.add (.num 2 1) (.var 2))) (.add (.num 5 1) (.mul (.num 2 1) (.var 2))))))) (.mul (.num 16658 1) (.sqrt (.mul (.mul (.pow (.var 2) 7) (.add (.num 2 1) (.var 2))) (.add (.num 5 1) (.mul (.num 2 1) (.var 2))))))) (.mul (.num 18759 1) (.sqrt (.mul (.mul (.pow (.var 2) 9) (.add (.num 2 1) (.var 2))) (.add (.num 5 1) (.mul (.num 2 1) (.var 2))))))) (.mul (.num 13041 1) (.sqrt (.mul (.mul (.pow (.var 2) 11) (.add (.num 2 1) (.var 2))) (.add (.num 5 1) (.mul (.num 2 1) (.var 2))))))) (.mul (.num 5736 1) (.sqrt (.mul (.mul (.pow (.var 2) 13) (.add (.num 2 1) (.var 2))) (.add (.num 5 1) (.mul (.num 2 1) (.var 2))))))) (.mul (.num 1560 1) (.sqrt (.mul (.mul (.pow (.var 2) 15) (.add (.num 2 1) (.var 2))) (.add (.num 5 1) (.mul (.num 2 1) (.var 2))))))) (.mul (.num 240 1) (.sqrt (.mul (.mul (.pow (.var 2) 17) (.add (.num 2 1) (.var 2))) (.add (.num 5 1) (.mul (.num 2 1) (.var 2))))))) (.mul (.num 16 1) (.sqrt (.mul (.mul (.pow (.var 2) 19) (.add (.num 2 1) (.var 2))) (.add (.num 5 1) (.mul (.num 2 1) (.var 2)))))))) (.mul (.mul (.mul (.mul (.mul (.var 2) (.pow (.add (.num 1 1) (.var 2)) 2)) (.pow (.add (.num 2 1) (.var 2)) 4)) (.sqrt (.add (.num 1 1) (.mul (.num 2 1) (.var 2))))) (.pow (.add (.num 3 1) (.mul (.num 2 1) (.var 2))) 2)) (.pow (.add (.num 5 1) (.mul (.num 2 1) (.var 2))) 2)),
  .neg (.sqrt (.div (.mul (.var 2) (.add (.num 3 1) (.var 2))) (.add (.add (.num 2 1) (.mul (.num 3 1) (.var 2))) (.pow (.var 2) 2)))),
  .div (.sqrt (.num 6 1)) (.mul (.add (.num 1 1) (.mul (.num 2 1) (.var 1))) (.sqrt (.mul (.mul (.mul (.add (.num 1 1) (.var 2)) (.add (.num 2 1) (.var 2))) (.add (.num 1 1) (.mul (.num 2 1) (.var 2)))) (.add (.num 3 1) (.mul (.num 2 1) (.var 2)))))),
  .div (.mul (.sqrt (.num 2 1)) (.sub (.add (.add (.add (.mul (.mul (.num 300 1) (.var 1)) (.sqrt (.div (.mul (.add (.num 1 1) (.var 1)) (.add (.num 1 1) (.mul (.num 2 1) (.var 2)))) (.mul (.mul (.mul (.add (.num 1 1) (.mul (.num 2 1) (.var 1))) (.add (.num 2 1) (.var 2))) (.add (.num 3 1) (.var 2))) (.add (.num 5 1) (.mul (.num 2 1) (.var 2))))))) (.mul (.mul (.num 2 1) (.pow (.var 2) 3)) (.add (.mul (.mul (.num 2 1) (.var 1)) (.sqrt (.div (.mul (.add (.num 1 1) (.var 1)) (.add (.num 1 1) (.mul (.num 2 1) (.var 2)))) (.mul (.mul (.mul (.add (.num 1 1) (.mul (.num 2 1) (.var 1))) (.add (.num 2 1) (.var 2))) (.add (.num 3 1) (.var 2))) (.add (.num 5 1) (.mul (.num 2 1) (.var 2))))))) (.sqrt (.div (.mul (.mul (.mul (.add (.num 1 1) (.var 1)) (.add (.num 1 1) (.mul (.num 2 1) (.var 1)))) (.add (.num 1 1) (.mul (.num 2 1) (.var 2)))) (.add (.num 5 1) (.mul (.num 2 1) (.var 2)))) (.mul (.add (.num 2 1) (.var 2)) (.add (.num 3 1) (.var 2)))))))) (.mul (.var 2) (.sub (.add (.sub (.add (.mul (.num 150 1) (.sqrt (.div (.mul (.add (.num 1 1) (.var 1)) (.add (.num 1 1) (.mul (.num 2 1) (.var 1)))) (.mul (.mul (.mul (.add (.num 2 1) (.var 2)) (.add (.num 3 1) (.var 2))) (.add (.num 1 1) (.mul (.num 2 1) (.var 2)))) (.add (.num 5 1) (.mul (.num 2 1) (.var 2))))))) (.mul (.mul (.num 190 1) (.var 1)) (.sqrt (.div (.mul (.add (.num 1 1) (.var 1)) (.add (.num 1 1) (.mul (.num 2 1) (.var 2)))) (.mul (.mul (.mul (.add (.num 1 1) (.mul (.num 2 1) (.var 1))) (.add (.num 2 1) (.var 2))) (.add (.num 3 1) (.var 2))) (.add (.num 5 1) (.mul (.num 2 1) (.var 2)))))))) (.mul (.mul (.num 60 1) (.var 1)) (.sqrt (.div (.mul (.add (.num 1 1) (.var 1)) (.add (.num 5 1) (.mul (.num 2 1) (.var 2)))) (.mul (.mul (.mul (.add (.num 1 1) (.mul (.num 2 1) (.var 1))) (.add (.num 2 1) (.var 2))) (.add (.num 3 1) (.var 2))) (.add (.num 1 1) (.mul (.num 2 1) (.var 2)))))))) (.mul (.num 6 1) (.sqrt (.div (.mul (.mul (.mul (.add (.num 1 1) (.var 1)) (.add (.num 1 1) (.mul (.num 2 1) (.var 1)))) (.add (.num 1 1) (.mul (.num 2 1) (.var 2)))) (.add (.num 5 1) (.mul (.num 2 1) (.var 2)))) (.mul (.add (.num 2 1) (.var 2)) (.add (.num 3 1) (.var 2))))))) (.mul (.num 5 1) (.sqrt (.div (.mul (.mul (.mul (.mul (.add (.num 1 1) (.var 1)) (.add (.num 1 1) (.mul (.num 2 1) (.var 1)))) (.add (.num 2 1) (.var 2))) (.add (.num 1 1) (.mul (.num 2 1) (.var 2)))) (.add (.num 5 1) (.mul (.num 2 1) (.var 2)))) (.add (.num 3 1) (.var 2)))))))) (.mul (.pow (.var 2) 2) (.sub (.add (.add (.mul (.num 60 1) (.sqrt (.div (.mul (.add (.num 1 1) (.var 1)) (.add (.num 1 1) (.mul (.num 2 1) (.var 1)))) (.mul (.mul (.mul (.add (.num 2 1) (.var 2)) (.add (.num 3 1) (.var 2))) (.add (.num 1 1) (.mul (.num 2 1) (.var 2)))) (.add (.num 5 1) (.mul (.num 2 1) (.var 2))))))) (.mul (.mul (.num 38 1) (.var 1)) (.sqrt (.div (.mul (.add (.num 1 1) (.var 1)) (.add (.num 1 1) (.mul (.num 2 1) (.var 2)))) (.mul (.mul (.mul (.add (.num 1 1) (.mul (.num 2 1) (.var 1))) (.add (.num 2 1) (.var 2))) (.add (.num 3 1) (.var 2))) (.add (.num 5 1) (.mul (.num 2 1) (.var 2)))))))) (.mul (.num 8 1) (.sqrt (.div (.mul (.mul (.mul (.add (.num 1 1) (.var 1)) (.add (.num 1 1) (.mul (.num 2 1) (.var 1)))) (.add (.num 1 1) (.mul (.num 2 1) (.var 2)))) (.add (.num 5 1) (.mul (.num 2 1) (.var 2)))) (.mul (.add (.num 2 1) (.var 2)) (.add (.num 3 1) (.var 2))))))) (.mul (.num 2 1) (.sqrt (.div (.mul (.mul (.mul (.mul (.add (.num 1 1) (.var 1)) (.add (.num 1 1) (.mul (.num 2 1) (.var 1)))) (.add (.num 2 1) (.var 2))) (.add (.num 1 1) (.mul (.num 2 1) (.var 2)))) (.add (.num 5 1) (.mul (.num 2 1) (.var 2)))) (.add (.num 3 1) (.var 2)))))))) (.mul (.num 3 1) (.add (.mul (.num 8 1) (.sqrt (.div (.mul (.mul (.mul (.add (.num 1 1) (.var 1)) (.add (.num 1 1) (.mul (.num 2 1) (.var 1)))) (.add (.num 1 1) (.mul (.num 2 1) (.var 2)))) (.add (.num 5 1) (.mul (.num 2 1) (.var 2)))) (.mul (.add (.num 2 1) (.var 2)) (.add (.num 3 1) (.var 2)))))) (.sqrt (.div (.mul (.mul (.mul (.mul (.add (.num 1 1) (.var 1)) (.add (.num 1 1) (.mul (.num 2 1) (.var 1)))) (.add (.num 2 1) (.var 2))) (.add (.num 1 1) (.mul (.num 2 1) (.var 2)))) (.add (.num 5 1) (.mul (.num 2 1) (.var 2)))) (.add (.num 3 1) (.var 2)))))))) (.sqrt (.div (.mul (.mul (.mul (.mul (.mul (.add (.num 1 1) (.var 1)) (.add (.num 1 1) (.mul (.num 2 1) (.var 1)))) (.add (.num 1 1) (.var 2))) (.pow (.add (.num 2 1) (.var 2)) 2)) (.add (.num 3 1) (.var 2))) (.pow (.add (.num 5 1) (.mul (.num 2 1) (.var 2))) 3)) (.add (.num 1 1) (.mul (.num 2 1) (.var 2))))),
  .div (.add (.mul (.num 30 1) (.sub (.add (.add (.mul (.mul (.neg (.num 40 1)) (.var 1)) (.sqrt (.div (.mul (.add (.num 1 1) (.var 1)) (.add (.num 1 1) (.mul (.num 2 1) (.var 2)))) (.mul (.mul (.mul (.add (.num 1 1) (.mul (.num 2 1) (.var 1))) (.add (.num 3 1) (.var 2))) (.add (.num 5 1) (.mul (.num 2 1) (.var 2)))) (.add (.num 7 1) (.mul (.num 2 1) (.var 2))))))) (.mul (.num 3 1) (.sqrt (.div (.mul (.mul (.add (.num 1 1) (.var 1)) (.add (.num 1 1) (.mul (.num 2 1) (.var 1)))) (.add (.num 5 1) (.mul (.num 2 1) (.var 2)))) (.mul (.mul (.add (.num 3 1) (.var 2)) (.add (.num 1 1) (.mul (.num 2 1) (.var 2)))) (.add (.num 7 1) (.mul (.num 2 1) (.var 2)))))))) (.mul (.num 4 1) (.sqrt (.div (.mul (.mul (.mul (.add (.num 1 1) (.var 1)) (.add (.num 1 1) (.mul (.num 2 1) (.var 1)))) (.add (.num 1 1) (.mul (.num 2 1) (.var 2)))) (.add (.num 5 1) (.mul (.num 2 1) (.var 2)))) (.mul (.add (.num 3 1) (.var 2)) (.add (.num 7 1) (.mul (.num 2 1) (.var 2)))))))) (.mul (.mul (.num 6 1) (.var 1)) (.sqrt (.div (.mul (.add (.num 1 1) (.var 1)) (.add (.num 5 1) (.mul (.num 2 1) (.var 2)))) (.mul (.add (.num 1 1) (.mul (.num 2 1) (.var 1))) (.add (.add (.add (.num 21 1) (.mul (.num 55 1) (.var 2))) (.mul (.num 28 1) (.pow (.var 2) 2))) (.mul (.num 4 1) (.pow (.var 2) 3))))))))) (.mul (.var 2) (.add (.add (.mul (.mul (.neg (.num 1270 1)) (.var 1)) (.sqrt (.div (.mul (.add (.num 1 1) (.var 1)) (.add (.num 1 1) (.mul (.num 2 1) (.var 2)))) (.mul (.mul (.mul (.add (.num 1 1) (.mul (.num 2 1) (.var 1))) (.add (.num 3 1) (.var 2))) (.add (.num 5 1) (.mul (.num 2 1) (.var 2)))) (.add (.num 7 1) (.mul (.num 2 1) (.var 2))))))) (.mul (.num 79 1) (.sqrt (.div (.mul (.mul (.mul (.add (.num 1 1) (.var 1)) (.add (.num 1 1) (.mul (.num 2 1) (.var 1)))) (.add (.num 1 1) (.mul (.num 2 1) (.var 2)))) (.add (.num 5 1) (.mul (.num 2 1) (.var 2)))) (.mul (.add (.num 3 1) (.var 2)) (.add (.num 7 1) (.mul (.num 2 1) (.var 2)))))))) (.mul (.var 2) (.add (.add (.mul (.mul (.neg (.num 526 1)) (.var 1)) (.sqrt (.div (.mul (.add (.num 1 1) (.var 1)) (.add (.num 1 1) (.mul (.num 2 1) (.var 2)))) (.mul (.mul (.mul (.add (.num 1 1) (.mul (.num 2 1) (.var 1))) (.add (.num 3 1) (.var 2))) (.add (.num 5 1) (.mul (.num 2 1) (.var 2)))) (.add (.num 7 1) (.mul (.num 2 1) (.var 2))))))) (.mul (.num 21 1) (.sqrt (.div (.mul (.mul (.mul (.add (.num 1 1) (.var 1)) (.add (.num 1 1) (.mul (.num 2 1) (.var 1)))) (.add (.num 1 1) (.mul (.num 2 1) (.var 2)))) (.add (.num 5 1) (.mul (.num 2 1) (.var 2)))) (.mul (.add (.num 3 1) (.var 2)) (.add (.num 7 1) (.mul (.num 2 1) (.var 2)))))))) (.mul (.mul (.num 2 1) (.var 2)) (.add (.mul (.mul (.mul (.neg (.num 4 1)) (.var 1)) (.add (.num 13 1) (.var 2))) (.sqrt (.div (.mul (.add (.num 1 1) (.var 1)) (.add (.num 1 1) (.mul (.num 2 1) (.var 2)))) (.mul (.mul (.mul (.add (.num 1 1) (.mul (.num 2 1) (.var 1))) (.add (.num 3 1) (.var 2))) (.add (.num 5 1) (.mul (.num 2 1) (.var 2)))) (.add (.num 7 1) (.mul (.num 2 1) (.var 2))))))) (.sqrt (.div (.mul (.mul (.mul (.add (.num 1 1) (.var 1)) (.add (.num 1 1) (.mul (.num 2 1) (.var 1)))) (.add (.num 1 1) (.mul (.num 2 1) (.var 2)))) (.add (.num 5 1) (.mul (.num 2 1) (.var 2)))) (.mul (.add (.num 3 1) (.var 2)) (.add (.num 7 1) (.mul (.num 2 1) (.var 2))))))))))))) (.sqrt (.div (.mul (.mul (.mul (.mul (.mul (.add (.num 1 1) (.var 1)) (.add (.num 1 1) (.mul (.num 2 1) (.var 1)))) (.pow (.add (.num 2 1) (.var 2)) 2)) (.add (.num 3 1) (.var 2))) (.pow (.add (.num 5 1) (.mul (.num 2 1) (.var 2))) 3)) (.add (.num 7 1) (.mul (.num 2 1) (.var 2)))) (.add (.num 1 1) (.mul (.num 2 1) (.var 2))))),
  .neg (.div (.sqrt (.num 6 1)) (.sqrt (.mul (.mul (.mul (.add (.num 1 1) (.var 2)) (.add (.num 2 1) (.var 2))) (.add (.num 1 1) (.mul (.num 2 1) (.var 2)))) (.add (.num 3 1) (.mul (.num 2 1) (.var 2)))))),
  .div (.mul (.sqrt (.num 2 1)) (.add (.mul (.num 15 1) (.add (.mul (.num 3 1) (.sqrt (.div (.add (.num 1 1) (.var 1)) (.add (.num 3 1) (.mul (.num 2 1) (.var 2)))))) (.sqrt (.mul (.add (.num 1 1) (.var 1)) (.add (.num 3 1) (.mul (.num 2 1) (.var 2))))))) (.mul (.var 2) (.add (.mul (.num 3 1) (.sub (.mul (.num 65 1) (.sqrt (.div (.add (.num 1 1) (.var 1)) (.add (.num 3 1) (.mul (.num 2 1) (.var 2)))))) (.mul (.num 6 1) (.sqrt (.mul (.add (.num 1 1) (.var 1)) (.add (.num 3 1) (.mul (.num 2 1) (.var 2)))))))) (.mul (.var 2) (.add (.mul (.num 5 1) (.sub (.mul (.num 58 1) (.sqrt (.div (.add (.num 1 1) (.var 1)) (.add (.num 3 1) (.mul (.num 2 1) (.var 2)))))) (.mul (.num 9 1) (.sqrt (.mul (.add (.num 1 1) (.var 1)) (.add (.num 3 1) (.mul (.num 2 1) (.var 2)))))))) (.mul (.mul (.num 2 1) (.var 2)) (.sub (.add (.mul (.num 90 1) (.sqrt (.div (.add (.num 1 1) (.var 1)) (.add (.num 3 1) (.mul (.num 2 1) (.var 2)))))) (.mul (.mul (.num 20 1) (.var 2)) (.sqrt (.div (.add (.num 1 1) (.var 1)) (.add (.num 3 1) (.mul (.num 2 1) (.var 2))))))) (.mul (.num 9 1) (.sqrt (.mul (.add (.num 1 1) (.var 1)) (.add (.num 3 1) (.mul (.num 2 1) (.var 2)))))))))))))) (.mul (.mul (.mul (.hpow (.add (.num 2 1) (.var 2)) 1) (.add (.num 3 1) (.var 2))) (.sqrt (.mul (.mul (.add (.num 1 1) (.var 1)) (.add (.num 1 1) (.var 2))) (.add (.num 3 1) (.mul (.num 2 1) (.var 2)))))) (.add (.num 5 1) (.mul (.num 2 1) (.var 2)))),
  .mul (.neg (.num 2 1)) (.sqrt (.div (.mul (.var 1) (.add (.num 2 1) (.var 1))) (.add (.num 3 1) (.mul (.mul (.num 4 1) (.var 1)) (.add (.num 2 1) (.var 1)))))),
  .div (.sqrt (.num 3 1)) (.sqrt (.add (.num 3 1) (.mul (.mul (.num 4 1) (.var 1)) (.add (.num 2 1) (.var 1))))),
  .neg (.div (.sqrt (.add (.neg (.num 3 1)) (.mul (.mul (.num 4 1) (.var 2)) (.add (.num 1 1) (.var 2))))) (.mul (.add (.num 1 1) (.mul (.num 2 1) (.var 1))) (.add (.num 1 1) (.mul (.num 2 1) (.var 2))))),
  .div (.sqrt (.add (.num 1 1) (.div (.num 2 1) (.add (.num 1 1) (.mul (.num 2 1) (.var 2)))))) (.mul (.add (.num 1 1) (.mul (.num 2 1) (.var 1))) (.add (.num 1 1) (.var 2))),
  .neg (.div (.num 1 1) (.add (.add (.num 1 1) (.mul (.num 3 1) (.var 2))) (.mul (.num 2 1) (.pow (.var 2) 2)))),
  .neg (.div (.num 1 1) (.mul (.add (.num 1 1) (.mul (.num 2 1) (.var 1))) (.add (.add (.num 1 1) (.mul (.num 3 1) (.var 2))) (.mul (.num 2 1) (.pow (.var 2) 2))))),
  .div (.mul (.mul (.add (.num 1 1) (.mul (.num 2 1) (.var 1))) (.sqrt (.add (.num 3 1) (.mul (.num 2 1) (.var 2))))) (.sub (.sub (.add (.mul (.mul (.num 2 1) (.var 2)) (.sqrt (.div (.mul (.mul (.var 1) (.pow (.add (.num 1 1) (.var 1)) 3)) (.pow (.add (.var 2) (.pow (.var 2) 2)) 3)) (.mul (.pow (.add (.num 1 1) (.mul (.num 2 1) (.var 1))) 4) (.add (.num 1 1) (.mul (.num 2 1) (.var 2))))))) (.mul (.mul (.num 2 1) (.var 2)) (.sqrt (.div (.mul (.mul (.var 1) (.pow (.add (.num 1 1) (.var 1)) 3)) (.pow (.add (.var 2) (.pow (.var 2) 2)) 3)) (.mul (.pow (.add (.num 1 1) (.mul (.num 2 1) (.var 1))) 2) (.add (.num 1 1) (.mul (.num 2 1) (.var 2)))))))) (.div (.mul (.mul (.mul (.mul (.add (.num 1 1) (.var 1)) (.var 2)) (.pow (.add (.num 1 1) (.var 2)) 2)) (.add (.neg (.num 1 1)) (.mul (.num 2 1) (.var 2)))) (.sqrt (.div (.mul (.mul (.var 1) (.add (.num 1 1) (.var 1))) (.var 2)) (.add (.add (.num 1 1) (.mul (.num 3 1) (.var 2))) (.mul (.num 2 1) (.pow (.var 2) 2)))))) (.pow (.add (.num 1 1) (.mul (.num 2 1) (.var 1))) 2))) (.div (.mul (.mul (.mul (.mul (.add (.num 1 1) (.var 1)) (.var 2)) (.pow (.add (.num 1 1) (.var 2)) 2)) (.add (.neg (.num 1 1)) (.mul (.num 2 1) (.var 2)))) (.sqrt (.div (.mul (.mul (.var 1) (.add (.num 1 1) (.var 1))) (.var 2)) (.add (.add (.num 1 1) (.mul (.num 3 1) (.var 2))) (.mul (.num 2 1) (.pow (.var 2) 2)))))) (.add (.num 1 1) (.mul (.num 2 1) (.var 1)))))) (.mul (.mul (.pow (.add (.num 1 1) (.var 1)) 2) (.hpow (.var 2) 1)) (.hpow (.add (.num 1 1) (.var 2)) 2)),
  .div (.mul (.neg (.num 2 1)) (.sqrt (.mul (.var 1) (.add (.num 1 1) (.var 1))))) (.mul (.add (.num 1 1) (.mul (.num 2 1) (.var 1))) (.add (.add (.num 1 1) (.mul (.num 3 1) (.var 2))) (.mul (.num 2 1) (.pow (.var 2) 2)))),
  .div (.mul (.mul (.mul (.add (.num 2 1) (.var 2)) (.add (.neg (.num 1 1)) (.mul (.num 2 1) (.var 2)))) (.add (.num 5 1) (.mul (.num 2 1) (.var 2)))) (.sqrt (.div (.var 2) (.add (.add (.add (.add (.sub (.neg (.num 30 1)) (.mul (.num 47 1) (.var 2))) (.mul (.num 96 1) (.pow (.var 2) 2))) (.mul (.num 184 1) (.pow (.var 2) 3))) (.mul (.num 96 1) (.pow (.var 2) 4))) (.mul (.num 16 1) (.pow (.var 2) 5)))))) (.add (.num 1 1) (.var 2)),
  .neg (.div (.mul (.mul (.sqrt (.num 3 1)) (.var 2)) (.add (.num 5 1) (.mul (.num 2 1) (.var 2)))) (.mul (.add (.num 1 1) (.var 2)) (.sqrt (.mul (.mul (.mul (.var 2) (.add (.num 2 1) (.var 2))) (.add (.num 1 1) (.mul (.num 2 1) (.var 2)))) (.add (.num 5 1) (.mul (.num 2 1) (.var 2))))))),
  .sqrt (.div (.mul (.var 2) (.add (.num 3 1) (.var 2))) (.add (.add (.num 2 1) (.mul (.num 3 1) (.var 2))) (.pow (.var 2) 2))),
  .sqrt (.div (.add (.neg (.num 3 1)) (.mul (.mul (.num 4 1) (.var 2)) (.add (.num 1 1) (.var 2)))) (.mul (.mul (.var 1) (.add (.num 1 1) (.mul (.num 2 1) (.var 1)))) (.pow (.add (.num 1 1) (.mul (.num 2 1) (.var 2))) 2))),
  .neg (.div (.sqrt (.div (.add (.num 3 1) (.mul (.num 2 1) (.var 2))) (.mul (.add (.var 1) (.mul (.num 2 1) (.pow (.var 1) 2))) (.add (.num 1 1) (.mul (.num 2 1) (.var 2)))))) (.add (.num 1 1) (.var 2))),
  .div (.sqrt (.div (.mul (.var 2) (.add (.num 2 1) (.var 2))) (.mul (.var 1) (.add (.num 1 1) (.mul (.num 2 1) (.var 1)))))) (.add (.num 1 1) (.var 2)),
  .div (.num 1 1) (.mul (.sqrt (.mul (.var 1) (.add (.num 1 1) (.mul (.num 2 1) (.var 1))))) (.add (.add (.num 1 1) (.mul (.num 3 1) (.var 2))) (.mul (.num 2 1) (.pow (.var 2) 2)))),
  .mul (.sqrt (.div (.mul (.add (.num 1 1) (.var 2)) (.add (.num 3 1) (.mul (.num 2 1) (.var 2)))) (.mul (.mul (.add (.num 1 1) (.var 1)) (.var 2)) (.add (.num 1 1) (.mul (.num 2 1) (.var 2)))))) (.add (.sub (.sqrt (.div (.mul (.mul (.sub (.num 2 1) (.div (.num 1 1) (.var 1))) (.var 2)) (.add (.neg (.num 1 1)) (.mul (.num 2 1) (.var 2)))) (.mul (.add (.num 1 1) (.mul (.num 2 1) (.var 1))) (.add (.add (.num 1 1) (.mul (.num 3 1) (.var 2))) (.mul (.num 2 1) (.pow (.var 2) 2)))))) (.sqrt (.div (.mul (.mul (.var 1) (.var 2)) (.add (.neg (.num 1 1)) (.mul (.num 2 1) (.var 2)))) (.mul (.add (.neg (.num 1 1)) (.mul (.num 4 1) (.pow (.var 1) 2))) (.add (.add (.num 1 1) (.mul (.num 3 1) (.var 2))) (.mul (.num 2 1) (.pow (.var 2) 2))))))) (.mul (.mul (.num 2 1) (.var 1)) (.sqrt (.div (.mul (.mul (.var 1) (.var 2)) (.add (.neg (.num 1 1)) (.mul (.num 2 1) (.var 2)))) (.mul (.add (.neg (.num 1 1)) (.mul (.num 4 1) (.pow (.var 1) 2))) (.add (.add (.num 1 1) (.mul (.num 3 1) (.var 2))) (.mul (.num 2 1) (.pow (.var 2) 2)))))))),
  .sqrt (.div (.add (.neg (.num 3 1)) (.mul (.mul (.num 4 1) (.var 2)) (.add (.num 1 1) (.var 2)))) (.mul (.mul (.add (.num 1 1) (.var 1)) (.add (.num 1 1) (.mul (.num 2 1) (.var 1)))) (.pow (.add (.num 1 1) (.mul (.num 2 1) (.var 2))) 2))),
  .div (.mul (.sqrt (.add (.num 3 1) (.mul (.num 2 1) (.var 2)))) (.add (.add (.sub (.sub (.add (.mul (.mul (.neg (.num 2 1)) (.var 2)) (.sqrt (.div (.mul (.mul (.mul (.pow (.var 1) 5) (.add (.num 1 1) (.var 1))) (.var 2)) (.add (.num 1 1) (.var 2))) (.mul (.add (.neg (.num 1 1)) (.mul (.num 4 1) (.pow (.var 1) 2))) (.add (.num 1 1) (.mul (.num 2 1) (.var 2))))))) (.sqrt (.div (.mul (.mul (.mul (.pow (.var 1) 3) (.add (.num 1 1) (.var 1))) (.pow (.var 2) 3)) (.add (.num 1 1) (.var 2))) (.mul (.add (.neg (.num 1 1)) (.mul (.num 4 1) (.pow (.var 1) 2))) (.add (.num 1 1) (.mul (.num 2 1) (.var 2))))))) (.mul (.num 2 1) (.sqrt (.div (.mul (.mul (.mul (.var 1) (.add (.add (.neg (.num 1 1)) (.var 1)) (.mul (.num 2 1) (.pow (.var 1) 2)))) (.pow (.var 2) 5)) (.add (.num 1 1) (.var 2))) (.mul (.add (.num 1 1) (.mul (.num 2 1) (.var 1))) (.add (.num 1 1) (.mul (.num 2 1) (.var 2)))))))) (.sqrt (.div (.mul (.mul (.var 1) (.add (.add (.neg (.num 1 1)) (.var 1)) (.mul (.num 2 1) (.pow (.var 1) 2)))) (.pow (.var 2) 3)) (.mul (.add (.num 1 1) (.mul (.num 2 1) (.var 1))) (.add (.add (.num 1 1) (.mul (.num 3 1) (.var 2))) (.mul (.num 2 1) (.pow (.var 2) 2))))))) (.sqrt (.div (.mul (.mul (.var 1) (.add (.add (.neg (.num 1 1)) (.var 1)) (.mul (.num 2 1) (.pow (.var 1) 2)))) (.pow (.var 2) 5)) (.mul (.add (.num 1 1) (.mul (.num 2 1) (.var 1))) (.add (.add (.num 1 1) (.mul (.num 3 1) (.var 2))) (.mul (.num 2 1) (.pow (.var 2) 2))))))) (.mul (.num 2 1) (.sqrt (.div (.mul (.mul (.var 1) (.add (.add (.neg (.num 1 1)) (.var 1)) (.mul (.num 2 1) (.pow (.var 1) 2)))) (.pow (.var 2) 7)) (.mul (.add (.num 1 1) (.mul (.num 2 1) (.var 1))) (.add (.add (.num 1 1) (.mul (.num 3 1) (.var 2))) (.mul (.num 2 1) (.pow (.var 2) 2))))))))) (.mul (.mul (.var 1) (.add (.num 1 1) (.var 1))) (.hpow (.mul (.var 2) (.add (.num 1 1) (.var 2))) 1)),
  .div (.add (.mul (.mul (.add (.neg (.num 1 1)) (.var 2)) (.var 2)) (.add (.mul (.mul (.var 1) (.add (.neg (.num 1 1)) (.mul (.num 2 1) (.var 1)))) (.sqrt (.mul (.mul (.mul (.mul (.mul (.var 1) (.pow (.add (.num 1 1) (.var 1)) 3)) (.add (.num 1 1) (.mul (.num 2 1) (.var 1)))) (.var 2)) (.pow (.add (.num 1 1) (.var 2)) 4)) (.add (.num 2 1) (.var 2))))) (.sqrt (.mul (.mul (.mul (.mul (.mul (.mul (.pow (.sub (.num 1 1) (.mul (.num 2 1) (.var 1))) 2) (.var 1)) (.pow (.add (.num 1 1) (.var 1)) 3)) (.add (.num 1 1) (.mul (.num 2 1) (.var 1)))) (.var 2)) (.pow (.add (.num 1 1) (.var 2)) 4)) (.add (.num 2 1) (.var 2)))))) (.mul (.num 3 1) (.add (.mul (.mul (.var 1) (.add (.neg (.num 1 1)) (.mul (.num 2 1) (.var 1)))) (.sqrt (.mul (.mul (.mul (.mul (.mul (.var 1) (.pow (.add (.num 1 1) (.var 1)) 3)) (.add (.num 1 1) (.mul (.num 2 1) (.var 1)))) (.pow (.var 2) 3)) (.pow (.add (.num 1 1) (.var 2)) 4)) (.add (.num 2 1) (.var 2))))) (.sqrt (.mul (.mul (.mul (.mul (.mul (.mul (.pow (.sub (.num 1 1) (.mul (.num 2 1) (.var 1))) 2) (.var 1)) (.pow (.add (.num 1 1) (.var 1)) 3)) (.add (.num 1 1) (.mul (.num 2 1) (.var 1)))) (.pow (.var 2) 3)) (.pow (.add (.num 1 1) (.var 2)) 4)) (.add (.num 2 1) (.var 2))))))) (.mul (.mul (.mul (.mul (.mul (.mul (.var 1) (.pow (.add (.num 1 1) (.var 1)) 2)) (.sqrt (.add (.neg (.num 1 1)) (.mul (.num 2 1) (.var 1))))) (.add (.num 1 1) (.mul (.num 2 1) (.var 1)))) (.var 2)) (.pow (.add (.num 1 1) (.var 2)) 3)) (.add (.num 2 1) (.var 2))),
  .neg (.div (.num 1 1) (.mul (.add (.num 1 1) (.var 2)) (.sqrt (.div (.mul (.mul (.add (.num 1 1) (.var 1)) (.add (.num 1 1) (.mul (.num 2 1) (.var 1)))) (.add (.num 1 1) (.mul (.num 2 1) (.var 2)))) (.add (.num 3 1) (.mul (.num 2 1) (.var 2))))))),
  .div (.add (.mul (.num 2 1) (.sqrt (.mul (.var 2) (.add (.num 3 1) (.mul (.num 2 1) (.var 2)))))) (.sqrt (.mul (.pow (.var 2) 3) (.add (.num 3 1) (.mul (.num 2 1) (.var 2)))))) (.mul (.add (.num 1 1) (.var 2)) (.sqrt (.mul (.mul (.mul (.add (.num 1 1) (.var 1)) (.add (.num 1 1) (.mul (.num 2 1) (.var 1)))) (.add (.num 2 1) (.var 2))) (.add (.num 3 1) (.mul (.num 2 1) (.var 2)))))),
  .div (.add (.add (.neg (.num 1 1)) (.var 1)) (.mul (.num 2 1) (.pow (.var 1) 2))) (.mul (.mul (.sqrt (.mul (.mul (.mul (.var 1) (.add (.num 1 1) (.var 1))) (.add (.neg (.num 1 1)) (.mul (.num 2 1) (.var 1)))) (.add (.num 1 1) (.mul (.num 2 1) (.var 1))))) (.add (.num 1 1) (.var 2))) (.add (.num 1 1) (.mul (.num 2 1) (.var 2)))),
  .neg (.div (.mul (.add (.num 1 1) (.var 1)) (.add (.neg (.num 1 1)) (.mul (.num 2 1) (.var 1)))) (.mul (.sqrt (.mul (.mul (.mul (.var 1) (.add (.num 1 1) (.var 1))) (.add (.neg (.num 1 1)) (.mul (.num 2 1) (.var 1)))) (.add (.num 1 1) (.mul (.num 2 1) (.var 1))))) (.add (.num 1 1) (.var 2)))),
  .div (.add (.add (.neg (.num 1 1)) (.var 1)) (.mul (.num 2 1) (.pow (.var 1) 2))) (.sqrt (.mul (.mul (.mul (.var 1) (.add (.num 1 1) (.var 1))) (.add (.neg (.num 1 1)) (.mul (.num 2 1) (.var 1)))) (.add (.num 1 1) (.mul (.num 2 1) (.var 1))))),
  .div (.num 1 1) (.mul (.sqrt (.add (.add (.num 1 1) (.mul (.num 3 1) (.var 1))) (.mul (.num 2 1) (.pow (.var 1) 2)))) (.add (.add (.num 1 1) (.mul (.num 3 1) (.var 2))) (.mul (.num 2 1) (.pow (.var 2) 2)))),
  .mul (.add (.num 3 1) (.mul (.num 2 1) (.var 1))) (.sqrt (.div (.mul (.var 1) (.add (.neg (.num 3 1)) (.mul (.mul (.num 4 1) (.var 2)) (.add (.num 1 1) (.var 2))))) (.mul (.mul (.mul (.add (.num 1 1) (.var 1)) (.add (.num 1 1) (.mul (.num 2 1) (.var 1)))) (.add (.num 3 1) (.mul (.num 2 1) (.var 1)))) (.pow (.add (.num 1 1) (.mul (.num 2 1) (.var 2))) 2)))),
  .neg (.div (.add (.add (.add (.add (.add (.add (.mul (.add (.num 1 1) (.var 1)) (.sqrt (.div (.mul (.mul (.var 1) (.add (.num 1 1) (.mul (.num 2 1) (.var 1)))) (.var 2)) (.add (.num 1 1) (.mul (.num 2 1) (.var 2)))))) (.mul (.mul (.var 1) (.add (.num 1 1) (.var 1))) (.sqrt (.div (.mul (.mul (.var 1) (.add (.num 1 1) (.mul (.num 2 1) (.var 1)))) (.var 2)) (.add (.num 1 1) (.mul (.num 2 1) (.var 2))))))) (.mul (.mul (.num 2 1) (.add (.num 1 1) (.var 1))) (.sqrt (.div (.mul (.mul (.var 1) (.add (.num 1 1) (.mul (.num 2 1) (.var 1)))) (.pow (.var 2) 3)) (.add (.num 1 1) (.mul (.num 2 1) (.var 2))))))) (.mul (.mul (.mul (.num 4 1) (.hpow (.var 1) 1)) (.sub (.num 1 1) (.mul (.num 2 1) (.var 2)))) (.sqrt (.div (.var 2) (.add (.add (.add (.num 1 1) (.mul (.num 2 1) (.var 1))) (.mul (.num 2 1) (.var 2))) (.mul (.mul (.num 4 1) (.var 1)) (.var 2))))))) (.mul (.mul (.mul (.num 2 1) (.hpow (.var 1) 2)) (.sub (.num 1 1) (.mul (.num 2 1) (.var 2)))) (.sqrt (.div (.var 2) (.add (.add (.add (.num 1 1) (.mul (.num 2 1) (.var 1))) (.mul (.num 2 1) (.var 2))) (.mul (.mul (.num 4 1) (.var 1)) (.var 2))))))) (.mul (.mul (.num 2 1) (.sub (.num 1 1) (.mul (.num 2 1) (.var 2)))) (.sqrt (.div (.mul (.var 1) (.var 2)) (.add (.add (.add (.num 1 1) (.mul (.num 2 1) (.var 1))) (.mul (.num 2 1) (.var 2))) (.mul (.mul (.num 4 1) (.var 1)) (.var 2))))))) (.mul (.mul (.num 2 1) (.add (.num 1 1) (.var 1))) (.sqrt (.div (.mul (.var 1) (.pow (.var 2) 3)) (.add (.add (.add (.num 1 1) (.mul (.num 2 1) (.var 1))) (.mul (.num 2 1) (.var 2))) (.mul (.mul (.num 4 1) (.var 1)) (.var 2))))))) (.mul (.pow (.add (.num 1 1) (.var 1)) 2) (.sqrt (.div (.mul (.mul (.mul (.add (.num 1 1) (.var 1)) (.add (.num 3 1) (.mul (.num 2 1) (.var 1)))) (.var 2)) (.pow (.add (.num 1 1) (.var 2)) 2)) (.add (.num 3 1) (.mul (.num 2 1) (.var 2))))))),
  .div (.add (.add (.add (.add (.mul (.num 4 1) (.sqrt (.div (.mul (.mul (.mul (.var 1) (.var 2)) (.add (.num 1 1) (.var 2))) (.add (.num 3 1) (.mul (.num 2 1) (.var 2)))) (.add (.num 1 1) (.var 1))))) (.mul (.mul (.num 2 1) (.var 2)) (.sqrt (.div (.mul (.mul (.mul (.var 1) (.var 2)) (.add (.num 1 1) (.var 2))) (.add (.num 3 1) (.mul (.num 2 1) (.var 2)))) (.add (.num 1 1) (.var 1)))))) (.mul (.num 2 1) (.sqrt (.mul (.mul (.mul (.mul (.var 1) (.add (.num 1 1) (.var 1))) (.var 2)) (.add (.num 1 1) (.var 2))) (.add (.num 3 1) (.mul (.num 2 1) (.var 2))))))) (.sqrt (.mul (.mul (.mul (.mul (.var 1) (.add (.num 1 1) (.var 1))) (.pow (.var 2) 3)) (.add (.num 1 1) (.var 2))) (.add (.num 3 1) (.mul (.num 2 1) (.var 2)))))) (.mul (.mul (.num 2 1) (.var 1)) (.add (.add (.add (.mul (.num 2 1) (.sqrt (.div (.mul (.mul (.mul (.var 1) (.var 2)) (.add (.num 1 1) (.var 2))) (.add (.num 3 1) (.mul (.num 2 1) (.var 2)))) (.add (.num 1 1) (.var 1))))) (.mul (.var 2) (.sqrt (.div (.mul (.mul (.mul (.var 1) (.var 2)) (.add (.num 1 1) (.var 2))) (.add (.num 3 1) (.mul (.num 2 1) (.var 2)))) (.add (.num 1 1) (.var 1)))))) (.mul (.num 2 1) (.sqrt (.mul (.mul (.mul (.mul (.var 1) (.add (.num 1 1) (.var 1))) (.var 2)) (.add (.num 1 1) (.var 2))) (.add (.num 3 1) (.mul (.num 2 1) (.var 2))))))) (.sqrt (.mul (.mul (.mul (.mul (.var 1) (.add (.num 1 1) (.var 1))) (.pow (.var 2) 3)) (.add (.num 1 1) (.var 2))) (.add (.num 3 1) (.mul (.num 2 1) (.var 2)))))))) (.sqrt (.mul (.mul (.mul (.mul (.pow (.add (.num 1 1) (.var 1)) 2) (.add (.num 3 1) (.mul (.mul (.num 4 1) (.var 1)) (.add (.num 2 1) (.var 1))))) (.pow (.add (.num 1 1) (.var 2)) 3)) (.add (.num 2 1) (.var 2))) (.add (.num 3 1) (.mul (.num 2 1) (.var 2))))),
  .div (.sub (.add (.add (.mul (.num 2 1) (.sqrt (.mul (.mul (.var 1) (.add (.num 1 1) (.mul (.num 2 1) (.var 1)))) (.add (.num 1 1) (.var 2))))) (.mul (.mul (.var 1) (.add (.num 3 1) (.mul (.num 2 1) (.var 1)))) (.sqrt (.mul (.mul (.var 1) (.add (.num 1 1) (.mul (.num 2 1) (.var 1)))) (.add (.num 1 1) (.var 2)))))) (.sqrt (.mul (.mul (.mul (.var 1) (.pow (.add (.num 1 1) (.mul (.num 2 1) (.var 1))) 3)) (.add (.num 1 1) (.var 2))) (.pow (.add (.num 1 1) (.mul (.num 2 1) (.var 2))) 2)))) (.mul (.var 2) (.add (.sub (.sub (.add (.add (.mul (.num 9 1) (.sqrt (.div (.mul (.var 1) (.add (.num 1 1) (.mul (.num 2 1) (.var 1)))) (.add (.num 1 1) (.var 2))))) (.mul (.num 15 1) (.sqrt (.div (.mul (.pow (.var 1) 3) (.add (.num 1 1) (.mul (.num 2 1) (.var 1)))) (.add (.num 1 1) (.var 2)))))) (.mul (.num 6 1) (.sqrt (.div (.mul (.pow (.var 1) 5) (.add (.num 1 1) (.mul (.num 2 1) (.var 1)))) (.add (.num 1 1) (.var 2)))))) (.mul (.num 4 1) (.sqrt (.mul (.mul (.var 1) (.add (.num 1 1) (.mul (.num 2 1) (.var 1)))) (.add (.num 1 1) (.var 2)))))) (.mul (.mul (.mul (.num 2 1) (.var 1)) (.add (.num 3 1) (.mul (.num 2 1) (.var 1)))) (.sqrt (.mul (.mul (.var 1) (.add (.num 1 1) (.mul (.num 2 1) (.var 1)))) (.add (.num 1 1) (.var 2)))))) (.mul (.mul (.num 2 1) (.var 2)) (.add (.add (.mul (.num 3 1) (.sqrt (.div (.mul (.var 1) (.add (.num 1 1) (.mul (.num 2 1) (.var 1)))) (.add (.num 1 1) (.var 2))))) (.mul (.num 5 1) (.sqrt (.div (.mul (.pow (.var 1) 3) (.add (.num 1 1) (.mul (.num 2 1) (.var 1)))) (.add (.num 1 1) (.var 2)))))) (.mul (.num 2 1) (.sqrt (.div (.mul (.pow (.var 1) 5) (.add (.num 1 1) (.mul (.num 2 1) (.var 1)))) (.add (.num 1 1) (.var 2)))))))))) (.mul (.mul (.mul (.hpow (.add (.num 1 1) (.var 1)) 1) (.add (.num 1 1) (.mul (.num 2 1) (.var 1)))) (.sqrt (.mul (.add (.num 3 1) (.mul (.num 2 1) (.var 1))) (.add (.num 1 1) (.var 2))))) (.add (.num 1 1) (.mul (.num 2 1) (.var 2)))),
  .div (.mul (.add (.num 3 1) (.mul (.num 2 1) (.var 1))) (.add (.add (.mul (.mul (.mul (.neg (.num 2 1)) (.add (.num 1 1) (.var 1))) (.add (.num 3 1) (.mul (.num 2 1) (.var 1)))) (.sqrt (.mul (.mul (.var 1) (.add (.num 1 1) (.mul (.num 2 1) (.var 1)))) (.add (.num 2 1) (.var 2))))) (.mul (.mul (.num 3 1) (.pow (.var 2) 2)) (.add (.add (.mul (.num 3 1) (.sqrt (.div (.mul (.var 1) (.add (.num 1 1) (.mul (.num 2 1) (.var 1)))) (.add (.num 2 1) (.var 2))))) (.mul (.mul (.num 5 1) (.var 1)) (.sqrt (.div (.mul (.var 1) (.add (.num 1 1) (.mul (.num 2 1) (.var 1)))) (.add (.num 2 1) (.var 2)))))) (.mul (.num 2 1) (.sqrt (.div (.mul (.pow (.var 1) 5) (.add (.num 1 1) (.mul (.num 2 1) (.var 1)))) (.add (.num 2 1) (.var 2)))))))) (.mul (.mul (.num 2 1) (.var 2)) (.add (.sub (.add (.mul (.num 9 1) (.sqrt (.div (.mul (.var 1) (.add (.num 1 1) (.mul (.num 2 1) (.var 1)))) (.add (.num 2 1) (.var 2))))) (.mul (.num 6 1) (.sqrt (.div (.mul (.pow (.var 1) 5) (.add (.num 1 1) (.mul (.num 2 1) (.var 1)))) (.add (.num 2 1) (.var 2)))))) (.mul (.num 6 1) (.sqrt (.mul (.mul (.var 1) (.add (.num 1 1) (.mul (.num 2 1) (.var 1)))) (.add (.num 2 1) (.var 2)))))) (.mul (.var 1) (.sub (.sub (.mul (.num 15 1) (.sqrt (.div (.mul (.var 1) (.add (.num 1 1) (.mul (.num 2 1) (.var 1)))) (.add (.num 2 1) (.var 2))))) (.mul (.num 10 1) (.sqrt (.mul (.mul (.var 1) (.add (.num 1 1) (.mul (.num 2 1) (.var 1)))) (.add (.num 2 1) (.var 2)))))) (.mul (.mul (.num 4 1) (.var 1)) (.sqrt (.mul (.mul (.var 1) (.add (.num 1 1) (.mul (.num 2 1) (.var 1)))) (.add (.num 2 1) (.var 2))))))))))) (.mul (.mul (.add (.num 1 1) (.mul (.num 2 1) (.var 1))) (.add (.num 1 1) (.var 2))) (.hpow (.mul (.mul (.add (.num 1 1) (.var 1)) (.add (.num 3 1) (.mul (.num 2 1) (.var 1)))) (.add (.num 2 1) (.var 2))) 1)),
  .sqrt (.sub (.add (.num 1 1) (.div (.num 1 1) (.add (.num 1 1) (.var 1)))) (.div (.num 2 1) (.add (.num 1 1) (.mul (.num 2 1) (.var 1))))),
  .neg (.div (.sqrt (.div (.sub (.num 9 1) (.mul (.num 4 1) (.pow (.var 2) 2))) (.sub (.num 1 1) (.mul (.num 4 1) (.pow (.var 2) 2))))) (.add (.num 1 1) (.mul (.num 2 1) (.var 1)))),
  .div (.num 1 1) (.sqrt (.div (.mul (.mul (.var 2) (.add (.num 1 1) (.var 2))) (.add (.num 1 1) (.mul (.num 2 1) (.var 2)))) (.add (.num 6 1) (.mul (.num 4 1) (.var 2))))),
  .neg (.div (.mul (.add (.neg (.num 1 1)) (.var 2)) (.add (.num 2 1) (.var 2))) (.sqrt (.div (.mul (.mul (.mul (.mul (.add (.neg (.num 1 1)) (.var 2)) (.var 2)) (.add (.num 1 1) (.var 2))) (.add (.num 2 1) (.var 2))) (.pow (.add (.num 1 1) (.mul (.num 2 1) (.var 2))) 2)) (.add (.neg (.num 3 1)) (.mul (.mul (.num 4 1) (.var 2)) (.add (.num 1 1) (.var 2))))))),
  .div (.sqrt (.div (.add (.num 6 1) (.mul (.num 4 1) (.var 2))) (.add (.add (.var 2) (.mul (.num 3 1) (.pow (.var 2) 2))) (.mul (.num 2 1) (.pow (.var 2) 3))))) (.add (.num 1 1) (.mul (.num 2 1) (.var 1))),
  .neg (.mul (.sqrt (.div (.add (.num 3 1) (.mul (.num 2 1) (.var 2))) (.mul (.add (.num 1 1) (.mul (.num 2 1) (.var 1))) (.add (.var 2) (.mul (.num 2 1) (.pow (.var 2) 2)))))) (.add (.add (.mul (.num 6 1) (.sqrt (.div (.add (.sub (.num 1 1) (.mul (.num 3 1) (.var 2))) (.mul (.num 2 1) (.pow (.var 2) 2))) (.mul (.add (.num 1 1) (.mul (.num 2 1) (.var 1))) (.add (.add (.add (.num 2 1) (.mul (.num 7 1) (.var 2))) (.mul (.num 7 1) (.pow (.var 2) 2))) (.mul (.num 2 1) (.pow (.var 2) 3))))))) (.mul (.num 4 1) (.sqrt (.div (.add (.neg (.num 1 1)) (.mul (.num 2 1) (.var 2))) (.mul (.add (.num 1 1) (.mul (.num 2 1) (.var 1))) (.add (.add (.sub (.neg (.num 2 1)) (.mul (.num 5 1) (.var 2))) (.mul (.num 5 1) (.pow (.var 2) 3))) (.mul (.num 2 1) (.pow (.var 2) 4)))))))) (.mul (.mul (.add (.neg (.num 5 1)) (.var 2)) (.var 2)) (.sqrt (.div (.add (.neg (.num 1 1)) (.mul (.num 2 1) (.var 2))) (.mul (.add (.num 1 1) (.mul (.num 2 1) (.var 1))) (.add (.add (.sub (.neg (.num 2 1)) (.mul (.num 5 1) (.var 2))) (.mul (.num 5 1) (.pow (.var 2) 3))) (.mul (.num 2 1) (.pow (.var 2) 4))))))))),
  .neg (.div (.sqrt (.num 6 1)) (.sqrt (.mul (.mul (.mul (.var 2) (.add (.num 1 1) (.var 2))) (.add (.neg (.num 1 1)) (.mul (.num 2 1) (.var 2)))) (.add (.num 1 1) (.mul (.num 2 1) (.var 2)))))),
  .div (.mul (.add (.num 2 1) (.var 2)) (.sqrt (.div (.add (.neg (.num 3 1)) (.mul (.num 6 1) (.var 2))) (.mul (.var 2) (.add (.add (.num 2 1) (.mul (.num 5 1) (.var 2))) (.mul (.num 2 1) (.pow (.var 2) 2))))))) (.add (.num 1 1) (.var 2)),
  .neg (.div (.mul (.mul (.mul (.add (.num 2 1) (.var 2)) (.add (.neg (.num 1 1)) (.mul (.num 2 1) (.var 2)))) (.add (.num 5 1) (.mul (.num 2 1) (.var 2)))) (.sqrt (.div (.var 2) (.add (.add (.add (.add (.sub (.neg (.num 30 1)) (.mul (.num 47 1) (.var 2))) (.mul (.num 96 1) (.pow (.var 2) 2))) (.mul (.num 184 1) (.pow (.var 2) 3))) (.mul (.num 96 1) (.pow (.var 2) 4))) (.mul (.num 16 1) (.pow (.var 2) 5)))))) (.add (.num 1 1) (.var 2))),
  .neg (.div (.sqrt (.num 6 1)) (.mul (.add (.num 1 1) (.mul (.num 2 1) (.var 1))) (.sqrt (.mul (.mul (.mul (.var 2) (.add (.num 1 1) (.var 2))) (.add (.neg (.num 1 1)) (.mul (.num 2 1) (.var 2)))) (.add (.num 1 1) (.mul (.num 2 1) (.var 2))))))),
  .neg (.div (.mul (.mul (.mul (.add (.num 2 1) (.var 2)) (.add (.neg (.num 1 1)) (.mul (.num 2 1) (.var 2)))) (.add (.num 5 1) (.mul (.num 2 1) (.var 2)))) (.sqrt (.div (.var 2) (.add (.add (.add (.add (.sub (.neg (.num 30 1)) (.mul (.num 47 1) (.var 2))) (.mul (.num 96 1) (.pow (.var 2) 2))) (.mul (.num 184 1) (.pow (.var 2) 3))) (.mul (.num 96 1) (.pow (.var 2) 4))) (.mul (.num 16 1) (.pow (.var 2) 5)))))) (.mul (.add (.num 1 1) (.mul (.num 2 1) (.var 1))) (.add (.num 1 1) (.var 2)))),
  .div (.mul (.mul (.sqrt (.num 3 1)) (.var 2)) (.add (.num 5 1) (.mul (.num 2 1) (.var 2)))) (.mul (.add (.num 1 1) (.var 2)) (.sqrt (.mul (.mul (.mul (.var 2) (.add (.num 2 1) (.var 2))) (.add (.num 1 1) (.mul (.num 2 1) (.var 2)))) (.add (.num 5 1) (.mul (.num 2 1) (.var 2)))))),
  .div (.neg (.num 3 1)) (.mul (.add (.num 1 1) (.mul (.num 2 1) (.var 1))) (.add (.add (.num 1 1) (.mul (.num 3 1) (.var 2))) (.mul (.num 2 1) (.pow (.var 2) 2)))),
  .div (.mul (.mul (.sqrt (.num 3 1)) (.var 2)) (.add (.num 5 1) (.mul (.num 2 1) (.var 2)))) (.mul (.mul (.add (.num 1 1) (.mul (.num 2 1) (.var 1))) (.add (.num 1 1) (.var 2))) (.sqrt (.mul (.mul (.mul (.var 2) (.add (.num 2 1) (.var 2))) (.add (.num 1 1) (.mul (.num 2 1) (.var 2)))) (.add (.num 5 1) (.mul (.num 2 1) (.var 2)))))),
  .neg (.div (.mul (.sqrt (.sub (.add (.num 1 1) (.div (.num 1 1) (.add (.num 2 1) (.var 2)))) (.div (.num 6 1) (.add (.num 5 1) (.mul (.num 2 1) (.var 2)))))) (.add (.add (.add (.mul (.num 30 1) (.sqrt (.mul (.mul (.mul (.mul (.add (.num 1 1) (.mul (.num 2 1) (.var 1))) (.var 2)) (.add (.num 3 1) (.var 2))) (.add (.num 3 1) (.mul (.num 2 1) (.var 2)))) (.add (.num 5 1) (.mul (.num 2 1) (.var 2)))))) (.mul (.num 63 1) (.sqrt (.mul (.mul (.mul (.mul (.add (.num 1 1) (.mul (.num 2 1) (.var 1))) (.pow (.var 2) 3)) (.add (.num 3 1) (.var 2))) (.add (.num 3 1) (.mul (.num 2 1) (.var 2)))) (.add (.num 5 1) (.mul (.num 2 1) (.var 2))))))) (.mul (.num 18 1) (.sqrt (.mul (.mul (.mul (.mul (.add (.num 1 1) (.mul (.num 2 1) (.var 1))) (.pow (.var 2) 5)) (.add (.num 3 1) (.var 2))) (.add (.num 3 1) (.mul (.num 2 1) (.var 2)))) (.add (.num 5 1) (.mul (.num 2 1) (.var 2))))))) (.mul (.mul (.var 2) (.sqrt (.mul (.mul (.mul (.mul (.add (.num 1 1) (.mul (.num 2 1) (.var 1))) (.var 2)) (.add (.num 3 1) (.var 2))) (.add (.num 3 1) (.mul (.num 2 1) (.var 2)))) (.add (.num 5 1) (.mul (.num 2 1) (.var 2)))))) (.add (.neg (.num 26 1)) (.mul (.var 2) (.add (.neg (.num 3 1)) (.mul (.num 2 1) (.var 2)))))))) (.mul (.mul (.mul (.mul (.mul (.hpow (.add (.num 1 1) (.mul (.num 2 1) (.var 1))) 1) (.add (.num 1 1) (.var 2))) (.add (.num 2 1) (.var 2))) (.add (.num 3 1) (.var 2))) (.add (.num 3 1) (.mul (.num 2 1) (.var 2)))) (.add (.num 5 1) (.mul (.num 2 1) (.var 2))))),
  .div (.sqrt (.num 2 1)) (.sqrt (.mul (.add (.num 1 1) (.var 2)) (.add (.num 2 1) (.var 2)))),
  .neg (.div (.sqrt (.num 6 1)) (.mul (.add (.num 1 1) (.mul (.num 2 1) (.var 1))) (.sqrt (.mul (.mul (.add (.num 1 1) (.var 2)) (.add (.num 2 1) (.var 2))) (.add (.num 3 1) (.mul (.mul (.num 4 1) (.var 2)) (.add (.num 2 1) (.var 2)))))))),
  .div (.mul (.mul (.mul (.num 2 1) (.sqrt (.num 2 1))) (.add (.sqrt (.neg (.div (.mul (.var 1) (.add (.num 1 1) (.var 1))) (.sub (.var 2) (.mul (.num 4 1) (.pow (.var 2) 3)))))) (.sqrt (.neg (.div (.mul (.pow (.var 1) 3) (.add (.num 1 1) (.var 1))) (.sub (.var 2) (.mul (.num 4 1) (.pow (.var 2) 3)))))))) (.sqrt (.add (.neg (.num 3 1)) (.mul (.var 2) (.add (.num 1 1) (.mul (.mul (.num 4 1) (.var 2)) (.add (.num 2 1) (.var 2)))))))) (.mul (.mul (.add (.num 1 1) (.var 1)) (.add (.num 1 1) (.mul (.num 2 1) (.var 1)))) (.add (.num 1 1) (.var 2))),
  .neg (.div (.mul (.sqrt (.div (.mul (.mul (.add (.num 1 1) (.mul (.num 2 1) (.var 1))) (.add (.num 1 1) (.var 2))) (.add (.num 3 1) (.mul (.num 2 1) (.var 2)))) (.mul (.var 2) (.add (.num 1 1) (.mul (.num 2 1) (.var 2)))))) (.add (.add (.add (.add (.mul (.num 6 1) (.sqrt (.div (.mul (.mul (.mul (.var 1) (.add (.num 1 1) (.var 1))) (.add (.neg (.num 1 1)) (.var 2))) (.add (.neg (.num 1 1)) (.mul (.num 2 1) (.var 2)))) (.mul (.mul (.pow (.add (.num 1 1) (.mul (.num 2 1) (.var 1))) 3) (.add (.num 2 1) (.var 2))) (.add (.num 1 1) (.mul (.num 2 1) (.var 2))))))) (.mul (.num 6 1) (.sqrt (.div (.mul (.mul (.mul (.var 1) (.add (.num 1 1) (.var 1))) (.add (.neg (.num 1 1)) (.var 2))) (.add (.neg (.num 1 1)) (.mul (.num 2 1) (.var 2)))) (.mul (.mul (.add (.num 1 1) (.mul (.num 2 1) (.var 1))) (.add (.num 2 1) (.var 2))) (.add (.num 1 1) (.mul (.num 2 1) (.var 2)))))))) (.div (.mul (.mul (.mul (.mul (.num 2 1) (.add (.num 1 1) (.var 1))) (.add (.neg (.num 5 1)) (.var 2))) (.var 2)) (.sqrt (.div (.mul (.mul (.var 1) (.add (.num 1 1) (.var 1))) (.add (.neg (.num 1 1)) (.mul (.num 2 1) (.var 2)))) (.mul (.mul (.add (.num 1 1) (.mul (.num 2 1) (.var 1))) (.add (.neg (.num 1 1)) (.var 2))) (.add (.add (.num 2 1) (.mul (.num 5 1) (.var 2))) (.mul (.num 2 1) (.pow (.var 2) 2))))))) (.add (.num 1 1) (.mul (.num 2 1) (.var 1))))) (.mul (.num 4 1) (.sqrt (.div (.mul (.mul (.var 1) (.add (.num 1 1) (.var 1))) (.add (.neg (.num 1 1)) (.mul (.num 2 1) (.var 2)))) (.mul (.pow (.add (.num 1 1) (.mul (.num 2 1) (.var 1))) 3) (.add (.add (.sub (.neg (.num 2 1)) (.mul (.num 3 1) (.var 2))) (.mul (.num 3 1) (.pow (.var 2) 2))) (.mul (.num 2 1) (.pow (.var 2) 3)))))))) (.mul (.num 4 1) (.sqrt (.div (.mul (.mul (.var 1) (.add (.num 1 1) (.var 1))) (.add (.neg (.num 1 1)) (.mul (.num 2 1) (.var 2)))) (.mul (.add (.num 1 1) (.mul (.num 2 1) (.var 1))) (.add (.add (.sub (.neg (.num 2 1)) (.mul (.num 3 1) (.var 2))) (.mul (.num 3 1) (.pow (.var 2) 2))) (.mul (.num 2 1) (.pow (.var 2) 3))))))))) (.mul (.add (.num 1 1) (.var 1)) (.add (.num 1 1) (.var 2)))),
  .div (.mul (.mul (.neg (.num 2 1)) (.sqrt (.num 6 1))) (.add (.num 1 1) (.var 1))) (.sqrt (.div (.mul (.mul (.mul (.mul (.mul (.add (.num 1 1) (.var 1)) (.pow (.add (.num 1 1) (.mul (.num 2 1) (.var 1))) 2)) (.var 2)) (.add (.num 1 1) (.var 2))) (.add (.neg (.num 1 1)) (.mul (.num 2 1) (.var 2)))) (.add (.num 1 1) (.mul (.num 2 1) (.var 2)))) (.var 1))),
  .neg (.mul (.mul (.sqrt (.num 3 1)) (.sqrt (.mul (.add (.num 1 1) (.var 2)) (.add (.num 3 1) (.mul (.num 2 1) (.var 2)))))) (.sub (.sub (.add (.add (.add (.div (.mul (.add (.neg (.num 4 1)) (.var 2)) (.hpow (.add (.neg (.num 1 1)) (.mul (.num 2 1) (.var 2))) 1)) (.mul (.mul (.add (.num 1 1) (.mul (.num 2 1) (.var 1))) (.add (.num 1 1) (.var 2))) (.sqrt (.div (.mul (.mul (.mul (.mul (.mul (.add (.num 1 1) (.var 1)) (.var 2)) (.add (.num 1 1) (.var 2))) (.add (.num 2 1) (.var 2))) (.add (.num 1 1) (.mul (.num 2 1) (.var 2)))) (.add (.num 3 1) (.mul (.num 2 1) (.var 2)))) (.var 1))))) (.mul (.mul (.add (.neg (.num 4 1)) (.var 2)) (.add (.neg (.num 1 1)) (.mul (.num 2 1) (.var 2)))) (.sqrt (.div (.mul (.var 1) (.add (.neg (.num 1 1)) (.mul (.num 2 1) (.var 2)))) (.mul (.mul (.mul (.add (.num 1 1) (.var 1)) (.var 2)) (.pow (.add (.num 1 1) (.var 2)) 3)) (.add (.add (.add (.num 6 1) (.mul (.num 19 1) (.var 2))) (.mul (.num 16 1) (.pow (.var 2) 2))) (.mul (.num 4 1) (.pow (.var 2) 3)))))))) (.mul (.num 6 1) (.sqrt (.div (.mul (.mul (.var 1) (.pow (.add (.neg (.num 1 1)) (.var 2)) 2)) (.add (.neg (.num 1 1)) (.mul (.num 2 1) (.var 2)))) (.mul (.mul (.mul (.add (.num 1 1) (.var 1)) (.var 2)) (.pow (.add (.num 1 1) (.var 2)) 3)) (.add (.add (.add (.num 6 1) (.mul (.num 19 1) (.var 2))) (.mul (.num 16 1) (.pow (.var 2) 2))) (.mul (.num 4 1) (.pow (.var 2) 3)))))))) (.mul (.num 6 1) (.sqrt (.div (.mul (.mul (.var 1) (.pow (.add (.neg (.num 1 1)) (.var 2)) 2)) (.add (.neg (.num 1 1)) (.mul (.num 2 1) (.var 2)))) (.mul (.mul (.mul (.mul (.add (.num 1 1) (.var 1)) (.pow (.add (.num 1 1) (.mul (.num 2 1) (.var 1))) 2)) (.var 2)) (.pow (.add (.num 1 1) (.var 2)) 3)) (.add (.add (.add (.num 6 1) (.mul (.num 19 1) (.var 2))) (.mul (.num 16 1) (.pow (.var 2) 2))) (.mul (.num 4 1) (.pow (.var 2) 3)))))))) (.mul (.mul (.mul (.mul (.num 2 1) (.add (.neg (.num 1 1)) (.var 2))) (.var 2)) (.add (.neg (.num 1 1)) (.mul (.num 2 1) (.var 2)))) (.sqrt (.div (.var 1) (.mul (.mul (.mul (.add (.num 1 1) (.var 1)) (.var 2)) (.pow (.add (.num 1 1) (.var 2)) 3)) (.add (.add (.add (.sub (.neg (.num 6 1)) (.mul (.num 7 1) (.var 2))) (.mul (.num 22 1) (.pow (.var 2) 2))) (.mul (.num 28 1) (.pow (.var 2) 3))) (.mul (.num 8 1) (.pow (.var 2) 4)))))))) (.mul (.mul (.mul (.mul (.num 2 1) (.add (.neg (.num 1 1)) (.var 2))) (.var 2)) (.add (.neg (.num 1 1)) (.mul (.num 2 1) (.var 2)))) (.sqrt (.div (.var 1) (.mul (.mul (.mul (.mul (.add (.num 1 1) (.var 1)) (.pow (.add (.num 1 1) (.mul (.num 2 1) (.var 1))) 2)) (.var 2)) (.pow (.add (.num 1 1) (.var 2)) 3)) (.add (.add (.add (.sub (.neg (.num 6 1)) (.mul (.num 7 1) (.var 2))) (.mul (.num 22 1) (.pow (.var 2) 2))) (.mul (.num 28 1) (.pow (.var 2) 3))) (.mul (.num 8 1) (.pow (.var 2) 4))))))))),
  .div (.add (.sub (.sub (.sub (.sub (.sub (.add (.add (.sub (.mul (.neg (.num 27 1)) (.sqrt (.div (.mul (.var 1) (.var 2)) (.mul (.add (.num 1 1) (.mul (.num 2 1) (.var 1))) (.add (.neg (.num 1 1)) (.mul (.num 2 1) (.var 2))))))) (.mul (.num 26 1) (.sqrt (.div (.mul (.mul (.var 1) (.add (.num 1 1) (.mul (.num 2 1) (.var 1)))) (.var 2)) (.add (.neg (.num 1 1)) (.mul (.num 2 1) (.var 2))))))) (.mul (.num 72 1) (.sqrt (.div (.mul (.var 1) (.pow (.var 2) 3)) (.mul (.add (.num 1 1) (.mul (.num 2 1) (.var 1))) (.add (.neg (.num 1 1)) (.mul (.num 2 1) (.var 2)))))))) (.mul (.num 61 1) (.sqrt (.div (.mul (.mul (.var 1) (.add (.num 1 1) (.mul (.num 2 1) (.var 1)))) (.pow (.var 2) 3)) (.add (.neg (.num 1 1)) (.mul (.num 2 1) (.var 2))))))) (.mul (.num 36 1) (.sqrt (.div (.mul (.var 1) (.pow (.var 2) 5)) (.mul (.add (.num 1 1) (.mul (.num 2 1) (.var 1))) (.add (.neg (.num 1 1)) (.mul (.num 2 1) (.var 2)))))))) (.mul (.num 16 1) (.sqrt (.div (.mul (.mul (.var 1) (.add (.num 1 1) (.mul (.num 2 1) (.var 1)))) (.pow (.var 2) 5)) (.add (.neg (.num 1 1)) (.mul (.num 2 1) (.var 2))))))) (.mul (.num 4 1) (.sqrt (.div (.mul (.mul (.var 1) (.add (.num 1 1) (.mul (.num 2 1) (.var 1)))) (.pow (.var 2) 7)) (.add (.neg (.num 1 1)) (.mul (.num 2 1) (.var 2))))))) (.mul (.num 36 1) (.sqrt (.div (.mul (.mul (.var 1) (.var 2)) (.add (.neg (.num 1 1)) (.mul (.num 2 1) (.var 2)))) (.add (.num 1 1) (.mul (.num 2 1) (.var 1))))))) (.mul (.num 36 1) (.sqrt (.mul (.mul (.mul (.var 1) (.add (.num 1 1) (.mul (.num 2 1) (.var 1)))) (.var 2)) (.add (.neg (.num 1 1)) (.mul (.num 2 1) (.var 2))))))) (.mul (.mul (.var 2) (.sqrt (.div (.var 1) (.mul (.mul (.add (.num 1 1) (.mul (.num 2 1) (.var 1))) (.var 2)) (.add (.neg (.num 1 1)) (.mul (.num 2 1) (.var 2))))))) (.add (.num 1 1) (.mul (.var 2) (.sub (.neg (.num 11 1)) (.mul (.mul (.num 4 1) (.add (.neg (.num 5 1)) (.var 2))) (.var 2))))))) (.mul (.add (.num 1 1) (.var 2)) (.sqrt (.mul (.mul (.mul (.mul (.mul (.add (.num 1 1) (.var 1)) (.add (.num 1 1) (.mul (.num 2 1) (.var 1)))) (.add (.num 2 1) (.var 2))) (.add (.num 1 1) (.mul (.num 2 1) (.var 2)))) (.add (.num 3 1) (.mul (.num 2 1) (.var 2)))) (.add (.num 5 1) (.mul (.num 2 1) (.var 2)))))),
  .div (.mul (.mul (.mul (.num 2 1) (.sqrt (.num 3 1))) (.sqrt (.div (.mul (.var 1) (.add (.num 1 1) (.var 1))) (.add (.add (.num 5 1) (.mul (.num 12 1) (.var 2))) (.mul (.num 4 1) (.pow (.var 2) 2)))))) (.add (.add (.mul (.num 10 1) (.sqrt (.mul (.var 2) (.add (.num 2 1) (.var 2))))) (.mul (.num 9 1) (.sqrt (.mul (.pow (.var 2) 3) (.add (.num 2 1) (.var 2)))))) (.mul (.num 2 1) (.sqrt (.mul (.pow (.var 2) 5) (.add (.num 2 1) (.var 2))))))) (.mul (.mul (.add (.num 1 1) (.mul (.num 2 1) (.var 1))) (.add (.num 1 1) (.var 2))) (.pow (.add (.num 2 1) (.var 2)) 2)),
  .div (.mul (.mul (.neg (.num 2 1)) (.sqrt (.num 6 1))) (.add (.add (.sqrt (.div (.mul (.mul (.var 1) (.add (.num 1 1) (.var 1))) (.add (.num 1 1) (.var 2))) (.add (.num 3 1) (.mul (.num 2 1) (.var 2))))) (.mul (.num 3 1) (.sqrt (.mul (.mul (.mul (.var 1) (.add (.num 1 1) (.var 1))) (.add (.num 1 1) (.var 2))) (.add (.num 3 1) (.mul (.num 2 1) (.var 2))))))) (.mul (.var 2) (.add (.sub (.sub (.add (.mul (.neg (.num 7 1)) (.sqrt (.div (.mul (.mul (.var 1) (.add (.num 1 1) (.var 1))) (.add (.num 1 1) (.var 2))) (.add (.num 3 1) (.mul (.num 2 1) (.var 2)))))) (.mul (.num 5 1) (.sqrt (.mul (.mul (.mul (.var 1) (.add (.num 1 1) (.var 1))) (.add (.num 1 1) (.var 2))) (.add (.num 3 1) (.mul (.num 2 1) (.var 2))))))) (.mul (.num 15 1) (.sqrt (.div (.mul (.var 1) (.add (.num 1 1) (.var 1))) (.add (.add (.num 3 1) (.mul (.num 5 1) (.var 2))) (.mul (.num 2 1) (.pow (.var 2) 2))))))) (.mul (.mul (.num 2 1) (.var 2)) (.add (.mul (.num 8 1) (.sqrt (.div (.mul (.mul (.var 1) (.add (.num 1 1) (.var 1))) (.add (.num 1 1) (.var 2))) (.add (.num 3 1) (.mul (.num 2 1) (.var 2)))))) (.sqrt (.mul (.mul (.mul (.var 1) (.add (.num 1 1) (.var 1))) (.add (.num 1 1) (.var 2))) (.add (.num 3 1) (.mul (.num 2 1) (.var 2)))))))) (.mul (.mul (.num 4 1) (.pow (.var 2) 2)) (.add (.sqrt (.div (.mul (.mul (.var 1) (.add (.num 1 1) (.var 1))) (.add (.num 1 1) (.var 2))) (.add (.num 3 1) (.mul (.num 2 1) (.var 2))))) (.mul (.num 3 1) (.sqrt (.div (.mul (.var 1) (.add (.num 1 1) (.var 1))) (.add (.add (.num 3 1) (.mul (.num 5 1) (.var 2))) (.mul (.num 2 1) (.pow (.var 2) 2)))))))))))) (.mul (.mul (.mul (.add (.num 1 1) (.mul (.num 2 1) (.var 1))) (.hpow (.add (.num 2 1) (.var 2)) 1)) (.sqrt (.add (.num 1 1) (.mul (.num 2 1) (.var 2))))) (.add (.num 5 1) (.mul (.num 2 1) (.var 2)))),
  .div (.mul (.mul (.num 2 1) (.sqrt (.add (.num 2 1) (.mul (.num 4 1) (.var 2))))) (.sub (.mul (.num 15 1) (.add (.sqrt (.div (.mul (.mul (.var 1) (.add (.num 1 1) (.var 1))) (.add (.num 1 1) (.mul (.num 2 1) (.var 2)))) (.add (.num 1 1) (.var 2)))) (.sqrt (.mul (.mul (.mul (.var 1) (.add (.num 1 1) (.var 1))) (.add (.num 1 1) (.var 2))) (.add (.num 1 1) (.mul (.num 2 1) (.var 2))))))) (.mul (.var 2) (.add (.sub (.add (.mul (.num 18 1) (.sqrt (.div (.mul (.mul (.var 1) (.add (.num 1 1) (.var 1))) (.add (.num 1 1) (.mul (.num 2 1) (.var 2)))) (.add (.num 1 1) (.var 2))))) (.mul (.mul (.num 9 1) (.var 2)) (.sqrt (.div (.mul (.mul (.var 1) (.add (.num 1 1) (.var 1))) (.add (.num 1 1) (.mul (.num 2 1) (.var 2)))) (.add (.num 1 1) (.var 2)))))) (.mul (.num 10 1) (.sqrt (.mul (.mul (.mul (.var 1) (.add (.num 1 1) (.var 1))) (.add (.num 1 1) (.var 2))) (.add (.num 1 1) (.mul (.num 2 1) (.var 2))))))) (.mul (.num 30 1) (.sqrt (.div (.mul (.var 1) (.add (.num 1 1) (.var 1))) (.add (.add (.num 1 1) (.mul (.num 3 1) (.var 2))) (.mul (.num 2 1) (.pow (.var 2) 2)))))))))) (.mul (.mul (.mul (.add (.num 1 1) (.mul (.num 2 1) (.var 1))) (.hpow (.add (.num 2 1) (.var 2)) 1)) (.add (.num 3 1) (.var 2))) (.add (.num 5 1) (.mul (.num 2 1) (.var 2)))),
  .div (.add (.add (.sqrt (.div (.mul (.mul (.add (.neg (.num 1 1)) (.mul (.num 2 1) (.var 1))) (.add (.num 1 1) (.var 2))) (.pow (.add (.num 1 1) (.mul (.num 2 1) (.var 2))) 2)) (.mul (.var 1) (.add (.num 3 1) (.mul (.num 2 1) (.var 2)))))) (.sqrt (.div (.add (.neg (.num 1 1)) (.mul (.num 2 1) (.var 1))) (.mul (.var 1) (.add (.add (.num 3 1) (.mul (.num 5 1) (.var 2))) (.mul (.num 2 1) (.pow (.var 2) 2))))))) (.sqrt (.div (.mul (.add (.neg (.num 1 1)) (.mul (.num 2 1) (.var 1))) (.pow (.add (.num 1 1) (.mul (.num 2 1) (.var 2))) 2)) (.mul (.var 1) (.add (.add (.num 3 1) (.mul (.num 5 1) (.var 2))) (.mul (.num 2 1) (.pow (.var 2) 2))))))) (.sqrt (.div (.mul (.mul (.add (.num 1 1) (.mul (.num 2 1) (.var 1))) (.add (.num 1 1) (.var 2))) (.add (.num 3 1) (.mul (.num 2 1) (.var 2)))) (.add (.num 1 1) (.var 1)))),
  .div (.mul (.add (.num 1 1) (.mul (.num 2 1) (.var 1))) (.sub (.add (.sub (.add (.neg (.sqrt (.div (.mul (.mul (.var 1) (.add (.num 1 1) (.var 1))) (.pow (.var 2) 3)) (.pow (.add (.num 1 1) (.mul (.num 2 1) (.var 1))) 3)))) (.mul (.mul (.num 2 1) (.var 1)) (.sqrt (.div (.mul (.mul (.var 1) (.add (.num 1 1) (.var 1))) (.pow (.var 2) 3)) (.pow (.add (.num 1 1) (.mul (.num 2 1) (.var 1))) 3))))) (.sqrt (.div (.mul (.mul (.var 1) (.add (.num 1 1) (.var 1))) (.pow (.var 2) 3)) (.add (.num 1 1) (.mul (.num 2 1) (.var 1)))))) (.sqrt (.div (.mul (.mul (.mul (.pow (.sub (.num 1 1) (.mul (.num 2 1) (.var 1))) 2) (.var 1)) (.add (.num 1 1) (.var 1))) (.pow (.var 2) 5)) (.pow (.add (.num 1 1) (.mul (.num 2 1) (.var 1))) 3)))) (.sqrt (.div (.mul (.mul (.var 1) (.add (.num 1 1) (.var 1))) (.pow (.var 2) 5)) (.add (.num 1 1) (.mul (.num 2 1) (.var 1))))))) (.mul (.mul (.mul (.mul (.num 2 1) (.var 1)) (.sqrt (.add (.num 1 1) (.var 1)))) (.hpow (.var 2) 1)) (.add (.num 1 1) (.var 2))),
  .div (.add (.add (.add (.add (.add (.add (.add (.mul (.num 3 1) (.sqrt (.mul (.var 1) (.var 2)))) (.mul (.mul (.num 4 1) (.var 1)) (.sqrt (.mul (.var 1) (.var 2))))) (.mul (.mul (.num 2 1) (.var 2)) (.sqrt (.mul (.var 1) (.var 2))))) (.mul (.mul (.num 2 1) (.var 1)) (.hpow (.mul (.var 1) (.var 2)) 1))) (.sqrt (.mul (.pow (.var 1) 3) (.var 2)))) (.mul (.num 2 1) (.sqrt (.mul (.pow (.var 1) 5) (.var 2))))) (.sqrt (.mul (.var 1) (.pow (.var 2) 3)))) (.mul (.mul (.num 5 1) (.var 1)) (.sqrt (.mul (.var 1) (.pow (.var 2) 3))))) (.mul (.mul (.add (.num 1 1) (.var 1)) (.sqrt (.mul (.mul (.add (.num 1 1) (.var 1)) (.add (.num 3 1) (.mul (.mul (.num 4 1) (.var 1)) (.add (.num 2 1) (.var 1))))) (.var 2)))) (.add (.num 1 1) (.var 2))),
  .div (.sqrt (.add (.neg (.num 1 1)) (.pow (.var 1) 2))) (.var 1),
  .div (.add (.neg (.num 1 1)) (.mul (.num 2 1) (.var 1))) (.mul (.var 1) (.sqrt (.add (.neg (.num 1 1)) (.mul (.num 4 1) (.pow (.var 1) 2))))),
  .div (.sqrt (.sub (.num 1 1) (.div (.num 2 1) (.add (.num 1 1) (.mul (.num 2 1) (.var 1)))))) (.var 1),
  .mul (.sqrt (.div (.add (.num 1 1) (.var 1)) (.add (.add (.mul (.num 3 1) (.var 1)) (.mul (.mul (.num 5 1) (.var 1)) (.var 2))) (.mul (.mul (.num 2 1) (.var 1)) (.pow (.var 2) 2))))) (.add (.add (.mul (.add (.num 1 1) (.mul (.num 2 1) (.var 2))) (.sqrt (.div (.mul (.add (.neg (.num 1 1)) (.var 1)) (.add (.num 1 1) (.var 2))) (.mul (.var 1) (.add (.num 3 1) (.mul (.num 2 1) (.var 2))))))) (.sqrt (.div (.add (.neg (.num 1 1)) (.var 1)) (.mul (.var 1) (.add (.add (.num 3 1) (.mul (.num 5 1) (.var 2))) (.mul (.num 2 1) (.pow (.var 2) 2))))))) (.mul (.add (.num 1 1) (.mul (.num 2 1) (.var 2))) (.sqrt (.div (.add (.neg (.num 1 1)) (.var 1)) (.mul (.var 1) (.add (.add (.num 3 1) (.mul (.num 5 1) (.var 2))) (.mul (.num 2 1) (.pow (.var 2) 2)))))))),
  .mul (.sqrt (.div (.add (.num 1 1) (.var 1)) (.mul (.mul (.var 1) (.add (.num 1 1) (.mul (.num 2 1) (.var 1)))) (.add (.add (.num 3 1) (.mul (.num 5 1) (.var 2))) (.mul (.num 2 1) (.pow (.var 2) 2)))))) (.add (.add (.mul (.add (.num 1 1) (.mul (.num 2 1) (.var 2))) (.sqrt (.div (.mul (.add (.neg (.num 1 1)) (.mul (.num 2 1) (.var 1))) (.add (.num 1 1) (.var 2))) (.mul (.add (.var 1) (.pow (.var 1) 2)) (.add (.num 3 1) (.mul (.num 2 1) (.var 2))))))) (.sqrt (.div (.add (.neg (.num 1 1)) (.mul (.num 2 1) (.var 1))) (.mul (.mul (.var 1) (.add (.num 1 1) (.var 1))) (.add (.add (.num 3 1) (.mul (.num 5 1) (.var 2))) (.mul (.num 2 1) (.pow (.var 2) 2))))))) (.mul (.add (.num 1 1) (.mul (.num 2 1) (.var 2))) (.sqrt (.div (.add (.neg (.num 1 1)) (.mul (.num 2 1) (.var 1))) (.mul (.mul (.var 1) (.add (.num 1 1) (.var 1))) (.add (.add (.num 3 1) (.mul (.num 5 1) (.var 2))) (.mul (.num 2 1) (.pow (.var 2) 2)))))))),
  .neg (.div (.num 1 1) (.var 1)),
  .add (.sub (.num 1 1) (.div (.num 1 1) (.var 1))) (.div (.num 1 1) (.add (.num 1 1) (.var 1))),
  .div (.num 1 1) (.add (.num 1 1) (.var 1)),
  .neg (.div (.sqrt (.add (.num 1 1) (.div (.num 2 1) (.add (.num 1 1) (.mul (.num 2 1) (.var 1)))))) (.add (.num 1 1) (.var 1))),
  .div (.sqrt (.mul (.var 1) (.add (.num 2 1) (.var 1)))) (.add (.num 1 1) (.var 1)),
  .div (.mul (.sqrt (.div (.add (.num 1 1) (.var 1)) (.add (.num 1 1) (.mul (.num 2 1) (.var 1))))) (.add (.add (.mul (.neg (.num 3 1)) (.sqrt (.div (.mul (.mul (.add (.neg (.num 1 1)) (.mul (.num 2 1) (.var 1))) (.add (.num 1 1) (.var 2))) (.add (.num 3 1) (.mul (.num 2 1) (.var 2)))) (.var 1)))) (.mul (.num 18 1) (.sqrt (.div (.add (.neg (.num 1 1)) (.mul (.num 2 1) (.var 1))) (.mul (.var 1) (.add (.add (.num 3 1) (.mul (.num 5 1) (.var 2))) (.mul (.num 2 1) (.pow (.var 2) 2)))))))) (.mul (.mul (.var 2) (.add (.num 5 1) (.mul (.num 2 1) (.var 2)))) (.add (.sqrt (.div (.mul (.mul (.add (.neg (.num 1 1)) (.mul (.num 2 1) (.var 1))) (.add (.num 1 1) (.var 2))) (.add (.num 3 1) (.mul (.num 2 1) (.var 2)))) (.var 1))) (.mul (.num 6 1) (.sqrt (.div (.add (.neg (.num 1 1)) (.mul (.num 2 1) (.var 1))) (.mul (.var 1) (.add (.add (.num 3 1) (.mul (.num 5 1) (.var 2))) (.mul (.num 2 1) (.pow (.var 2) 2))))))))))) (.hpow (.mul (.add (.num 1 1) (.var 2)) (.add (.num 3 1) (.mul (.num 2 1) (.var 2)))) 1),
  .div (.mul (.sqrt (.div (.add (.num 1 1) (.var 1)) (.add (.var 2) (.mul (.mul (.num 2 1) (.var 1)) (.var 2))))) (.add (.add (.add (.mul (.num 6 1) (.sqrt (.mul (.sub (.num 2 1) (.div (.num 1 1) (.var 1))) (.var 2)))) (.mul (.num 13 1) (.sqrt (.div (.mul (.add (.neg (.num 1 1)) (.mul (.num 2 1) (.var 1))) (.pow (.var 2) 3)) (.var 1))))) (.mul (.num 9 1) (.sqrt (.div (.mul (.add (.neg (.num 1 1)) (.mul (.num 2 1) (.var 1))) (.pow (.var 2) 5)) (.var 1))))) (.mul (.num 2 1) (.sqrt (.div (.mul (.add (.neg (.num 1 1)) (.mul (.num 2 1) (.var 1))) (.pow (.var 2) 7)) (.var 1)))))) (.mul (.mul (.add (.num 1 1) (.var 2)) (.add (.num 2 1) (.var 2))) (.add (.num 3 1) (.mul (.num 2 1) (.var 2)))),
  .mul (.sqrt (.div (.add (.num 1 1) (.var 1)) (.mul (.add (.num 1 1) (.mul (.num 2 1) (.var 1))) (.add (.add (.add (.add (.num 30 1) (.mul (.num 77 1) (.var 2))) (.mul (.num 71 1) (.pow (.var 2) 2))) (.mul (.num 28 1) (.pow (.var 2) 3))) (.mul (.num 4 1) (.pow (.var 2) 4)))))) (.add (.add (.add (.add (.mul (.mul (.num 2 1) (.add (.num 1 1) (.mul (.num 2 1) (.var 2)))) (.sqrt (.div (.mul (.mul (.add (.neg (.num 1 1)) (.mul (.num 2 1) (.var 1))) (.add (.num 1 1) (.var 2))) (.add (.num 3 1) (.mul (.num 2 1) (.var 2)))) (.mul (.mul (.var 1) (.add (.num 2 1) (.var 2))) (.add (.num 5 1) (.mul (.num 2 1) (.var 2))))))) (.mul (.add (.num 1 1) (.mul (.num 2 1) (.var 2))) (.sqrt (.div (.mul (.mul (.mul (.add (.neg (.num 1 1)) (.mul (.num 2 1) (.var 1))) (.add (.num 1 1) (.var 2))) (.add (.num 2 1) (.var 2))) (.add (.num 3 1) (.mul (.num 2 1) (.var 2)))) (.mul (.var 1) (.add (.num 5 1) (.mul (.num 2 1) (.var 2)))))))) (.mul (.mul (.num 6 1) (.add (.num 1 1) (.mul (.num 2 1) (.var 2)))) (.sqrt (.div (.mul (.add (.neg (.num 1 1)) (.mul (.num 2 1) (.var 1))) (.add (.num 1 1) (.var 2))) (.mul (.var 1) (.add (.add (.add (.num 30 1) (.mul (.num 47 1) (.var 2))) (.mul (.num 24 1) (.pow (.var 2) 2))) (.mul (.num 4 1) (.pow (.var 2) 3)))))))) (.mul (.num 6 1) (.sqrt (.div (.add (.neg (.num 1 1)) (.mul (.num 2 1) (.var 1))) (.mul (.var 1) (.add (.add (.add (.add (.num 30 1) (.mul (.num 77 1) (.var 2))) (.mul (.num 71 1) (.pow (.var 2) 2))) (.mul (.num 28 1) (.pow (.var 2) 3))) (.mul (.num 4 1) (.pow (.var 2) 4)))))))) (.mul (.mul (.num 6 1) (.add (.num 1 1) (.mul (.num 2 1) (.var 2)))) (.sqrt (.div (.add (.neg (.num 1 1)) (.mul (.num 2 1) (.var 1))) (.mul (.var 1) (.add (.add (.add (.add (.num 30 1) (.mul (.num 77 1) (.var 2))) (.mul (.num 71 1) (.pow (.var 2) 2))) (.mul (.num 28 1) (.pow (.var 2) 3))) (.mul (.num 4 1) (.pow (.var 2) 4)))))))),
  .div (.mul (.var 1) (.add (.num 3 1) (.mul (.num 2 1) (.var 1)))) (.sqrt (.mul (.mul (.mul (.var 1) (.add (.num 1 1) (.var 1))) (.add (.num 1 1) (.mul (.num 2 1) (.var 1)))) (.add (.num 3 1) (.mul (.num 2 1) (.var 1))))),
  .div (.add (.num 3 1) (.mul (.num 2 1) (.var 1))) (.sqrt (.div (.mul (.mul (.add (.num 1 1) (.var 1)) (.add (.num 1 1) (.mul (.num 2 1) (.var 1)))) (.add (.num 3 1) (.mul (.num 2 1) (.var 1)))) (.var 1))),
  .sqrt (.add (.add (.num 1 1) (.div (.num 6 1) (.sub (.num 1 1) (.mul (.num 2 1) (.var 1))))) (.div (.num 3 1) (.var 1))),
  .div (.sqrt (.add (.sub (.num 3 1) (.mul (.num 9 1) (.var 1))) (.mul (.num 6 1) (.pow (.var 1) 2)))) (.mul (.var 1) (.add (.neg (.num 1 1)) (.mul (.num 2 1) (.var 1)))),
  .neg (.div (.sqrt (.num 3 1)) (.sqrt (.mul (.var 1) (.add (.neg (.num 1 1)) (.mul (.num 2 1) (.var 1)))))),
  .div (.add (.add (.neg (.num 4 1)) (.var 1)) (.mul (.num 2 1) (.pow (.var 1) 2))) (.sqrt (.mul (.mul (.mul (.var 1) (.add (.num 1 1) (.var 1))) (.add (.neg (.num 1 1)) (.mul (.num 2 1) (.var 1)))) (.add (.num 1 1) (.mul (.num 2 1) (.var 1))))),
  .div (.sqrt (.add (.add (.sub (.neg (.num 2 1)) (.div (.num 3 1) (.var 1))) (.mul (.num 12 1) (.var 1))) (.mul (.num 8 1) (.pow (.var 1) 2)))) (.add (.add (.num 1 1) (.mul (.num 3 1) (.var 1))) (.mul (.num 2 1) (.pow (.var 1) 2))),
  .neg (.div (.num 1 1) (.mul (.var 1) (.sqrt (.div (.mul (.add (.num 1 1) (.var 1)) (.add (.num 1 1) (.mul (.num 2 1) (.var 1)))) (.add (.neg (.num 3 1)) (.mul (.mul (.num 4 1) (.var 1)) (.add (.num 1 1) (.var 1)))))))),
  .div (.add (.neg (.num 3 1)) (.mul (.var 1) (.add (.num 3 1) (.mul (.num 2 1) (.var 1))))) (.sqrt (.mul (.mul (.mul (.var 1) (.add (.num 1 1) (.var 1))) (.add (.num 1 1) (.mul (.num 2 1) (.var 1)))) (.add (.num 3 1) (.mul (.num 2 1) (.var 1))))),
  .div (.mul (.sqrt (.num 3 1)) (.add (.add (.mul (.num 6 1) (.sqrt (.mul (.mul (.var 1) (.add (.num 1 1) (.var 1))) (.add (.num 3 1) (.mul (.num 2 1) (.var 1)))))) (.mul (.num 7 1) (.sqrt (.mul (.mul (.pow (.var 1) 3) (.add (.num 1 1) (.var 1))) (.add (.num 3 1) (.mul (.num 2 1) (.var 1))))))) (.mul (.num 2 1) (.sqrt (.mul (.mul (.pow (.var 1) 5) (.add (.num 1 1) (.var 1))) (.add (.num 3 1) (.mul (.num 2 1) (.var 1)))))))) (.mul (.mul (.mul (.sqrt (.var 1)) (.add (.num 1 1) (.var 1))) (.add (.num 2 1) (.var 1))) (.pow (.add (.num 3 1) (.mul (.num 2 1) (.var 1))) 2)),
  .neg (.div (.sqrt (.div (.add (.num 6 1) (.mul (.num 3 1) (.var 1))) (.add (.num 3 1) (.mul (.num 2 1) (.var 1))))) (.add (.num 1 1) (.var 1))),
  .div (.mul (.add (.num 5 1) (.mul (.num 2 1) (.var 1))) (.sqrt (.div (.mul (.var 1) (.add (.num 1 1) (.var 1))) (.add (.add (.num 15 1) (.mul (.num 16 1) (.var 1))) (.mul (.num 4 1) (.pow (.var 1) 2)))))) (.add (.num 1 1) (.var 1)),
  .mul (.sqrt (.div (.add (.num 3 1) (.mul (.num 2 1) (.var 1))) (.mul (.add (.num 1 1) (.mul (.num 2 1) (.var 1))) (.add (.add (.num 3 1) (.mul (.num 5 1) (.var 2))) (.mul (.num 2 1) (.pow (.var 2) 2)))))) (.add (.add (.mul (.add (.num 1 1) (.mul (.num 2 1) (.var 2))) (.sqrt (.div (.mul (.var 1) (.add (.num 1 1) (.var 2))) (.mul (.add (.num 1 1) (.var 1)) (.add (.num 3 1) (.mul (.num 2 1) (.var 2))))))) (.sqrt (.div (.var 1) (.mul (.add (.num 1 1) (.var 1)) (.add (.add (.num 3 1) (.mul (.num 5 1) (.var 2))) (.mul (.num 2 1) (.pow (.var 2) 2))))))) (.mul (.add (.num 1 1) (.mul (.num 2 1) (.var 2))) (.sqrt (.div (.var 1) (.mul (.add (.num 1 1) (.var 1)) (.add (.add (.num 3 1) (.mul (.num 5 1) (.var 2))) (.mul (.num 2 1) (.pow (.var 2) 2)))))))),
  .div (.sqrt (.add (.neg (.num 3 1)) (.mul (.mul (.num 4 1) (.var 1)) (.add (.num 1 1) (.var 1))))) (.add (.num 1 1) (.mul (.num 2 1) (.var 1))),
  .mul (.sqrt (.div (.mul (.add (.num 1 1) (.var 1)) (.add (.num 3 1) (.mul (.num 2 1) (.var 1)))) (.mul (.mul (.mul (.var 1) (.add (.num 1 1) (.mul (.num 2 1) (.var 1)))) (.add (.num 1 1) (.var 2))) (.add (.num 3 1) (.mul (.num 2 1) (.var 2)))))) (.add (.add (.mul (.add (.num 1 1) (.mul (.num 2 1) (.var 2))) (.sqrt (.div (.mul (.mul (.var 1) (.add (.neg (.num 1 1)) (.mul (.num 2 1) (.var 1)))) (.add (.num 1 1) (.var 2))) (.mul (.add (.add (.num 1 1) (.mul (.num 3 1) (.var 1))) (.mul (.num 2 1) (.pow (.var 1) 2))) (.add (.num 3 1) (.mul (.num 2 1) (.var 2))))))) (.sqrt (.div (.mul (.var 1) (.add (.neg (.num 1 1)) (.mul (.num 2 1) (.var 1)))) (.mul (.add (.add (.num 1 1) (.mul (.num 3 1) (.var 1))) (.mul (.num 2 1) (.pow (.var 1) 2))) (.add (.add (.num 3 1) (.mul (.num 5 1) (.var 2))) (.mul (.num 2 1) (.pow (.var 2) 2))))))) (.mul (.add (.num 1 1) (.mul (.num 2 1) (.var 2))) (.sqrt (.div (.mul (.var 1) (.add (.neg (.num 1 1)) (.mul (.num 2 1) (.var 1)))) (.mul (.add (.add (.num 1 1) (.mul (.num 3 1) (.var 1))) (.mul (.num 2 1) (.pow (.var 1) 2))) (.add (.add (.num 3 1) (.mul (.num 5 1) (.var 2))) (.mul (.num 2 1) (.pow (.var 2) 2)))))))),
  .div (.add (.sub (.mul (.mul (.num 3 1) (.add (.num 1 1) (.var 2))) (.sqrt (.mul (.mul (.mul (.mul (.pow (.var 1) 3) (.pow (.add (.num 1 1) (.var 1)) 4)) (.add (.num 2 1) (.var 1))) (.pow (.var 2) 3)) (.pow (.add (.num 1 1) (.var 2)) 4)))) (.mul (.var 1) (.add (.mul (.pow (.var 2) 2) (.sqrt (.mul (.mul (.mul (.mul (.var 1) (.pow (.add (.num 1 1) (.var 1)) 4)) (.add (.num 2 1) (.var 1))) (.var 2)) (.pow (.add (.num 1 1) (.var 2)) 4)))) (.sqrt (.mul (.mul (.mul (.mul (.var 1) (.pow (.add (.num 1 1) (.var 1)) 4)) (.add (.num 2 1) (.var 1))) (.pow (.var 2) 3)) (.pow (.add (.num 1 1) (.var 2)) 4)))))) (.mul (.pow (.var 1) 2) (.add (.mul (.pow (.var 2) 2) (.sqrt (.mul (.mul (.mul (.mul (.var 1) (.pow (.add (.num 1 1) (.var 1)) 4)) (.add (.num 2 1) (.var 1))) (.var 2)) (.pow (.add (.num 1 1) (.var 2)) 4)))) (.sqrt (.mul (.mul (.mul (.mul (.var 1) (.pow (.add (.num 1 1) (.var 1)) 4)) (.add (.num 2 1) (.var 1))) (.pow (.var 2) 3)) (.pow (.add (.num 1 1) (.var 2)) 4)))))) (.mul (.mul (.mul (.mul (.var 1) (.pow (.add (.num 1 1) (.var 1)) 3)) (.add (.num 2 1) (.var 1))) (.hpow (.var 2) 1)) (.pow (.add (.num 1 1) (.var 2)) 3)),
  .neg (.div (.sqrt (.add (.num 3 1) (.mul (.mul (.num 4 1) (.var 1)) (.add (.num 2 1) (.var 1))))) (.mul (.add (.num 1 1) (.var 1)) (.add (.num 1 1) (.mul (.num 2 1) (.var 1))))),
  .div (.add (.sub (.add (.mul (.num 3 1) (.sqrt (.div (.mul (.var 1) (.add (.num 3 1) (.mul (.num 2 1) (.var 1)))) (.add (.num 1 1) (.var 1))))) (.mul (.num 3 1) (.sqrt (.div (.mul (.pow (.var 1) 3) (.add (.num 3 1) (.mul (.num 2 1) (.var 1)))) (.add (.num 1 1) (.var 1)))))) (.sqrt (.mul (.mul (.var 1) (.add (.num 1 1) (.var 1))) (.add (.num 3 1) (.mul (.num 2 1) (.var 1)))))) (.sqrt (.mul (.mul (.pow (.var 1) 3) (.add (.num 1 1) (.var 1))) (.add (.num 3 1) (.mul (.num 2 1) (.var 1)))))) (.mul (.hpow (.add (.num 1 1) (.var 1)) 1) (.sqrt (.mul (.add (.num 2 1) (.var 1)) (.add (.num 3 1) (.mul (.num 2 1) (.var 1)))))),
  .div (.num 1 1) (.add (.add (.num 1 1) (.mul (.num 3 1) (.var 1))) (.mul (.num 2 1) (.pow (.var 1) 2))),
  .neg (.div (.num 1 1) (.add (.num 1 1) (.var 1))),
  .div (.mul (.sqrt (.div (.add (.num 3 1) (.mul (.num 2 1) (.var 1))) (.add (.var 2) (.mul (.mul (.num 2 1) (.var 1)) (.var 2))))) (.add (.add (.add (.mul (.num 6 1) (.sqrt (.div (.mul (.var 1) (.var 2)) (.add (.num 1 1) (.var 1))))) (.mul (.num 13 1) (.sqrt (.div (.mul (.var 1) (.pow (.var 2) 3)) (.add (.num 1 1) (.var 1)))))) (.mul (.num 9 1) (.sqrt (.div (.mul (.var 1) (.pow (.var 2) 5)) (.add (.num 1 1) (.var 1)))))) (.mul (.num 2 1) (.sqrt (.div (.mul (.var 1) (.pow (.var 2) 7)) (.add (.num 1 1) (.var 1))))))) (.add (.add (.add (.num 6 1) (.mul (.num 13 1) (.var 2))) (.mul (.num 9 1) (.pow (.var 2) 2))) (.mul (.num 2 1) (.pow (.var 2) 3))),
  .mul (.sqrt (.div (.add (.num 3 1) (.mul (.num 2 1) (.var 1))) (.mul (.add (.num 1 1) (.mul (.num 2 1) (.var 1))) (.add (.add (.add (.add (.num 30 1) (.mul (.num 77 1) (.var 2))) (.mul (.num 71 1) (.pow (.var 2) 2))) (.mul (.num 28 1) (.pow (.var 2) 3))) (.mul (.num 4 1) (.pow (.var 2) 4)))))) (.add (.add (.add (.add (.mul (.mul (.num 2 1) (.add (.num 1 1) (.mul (.num 2 1) (.var 2)))) (.sqrt (.div (.mul (.mul (.var 1) (.add (.num 1 1) (.var 2))) (.add (.num 3 1) (.mul (.num 2 1) (.var 2)))) (.mul (.mul (.add (.num 1 1) (.var 1)) (.add (.num 2 1) (.var 2))) (.add (.num 5 1) (.mul (.num 2 1) (.var 2))))))) (.mul (.add (.num 1 1) (.mul (.num 2 1) (.var 2))) (.sqrt (.div (.mul (.mul (.mul (.var 1) (.add (.num 1 1) (.var 2))) (.add (.num 2 1) (.var 2))) (.add (.num 3 1) (.mul (.num 2 1) (.var 2)))) (.mul (.add (.num 1 1) (.var 1)) (.add (.num 5 1) (.mul (.num 2 1) (.var 2)))))))) (.mul (.mul (.num 6 1) (.add (.num 1 1) (.mul (.num 2 1) (.var 2)))) (.sqrt (.div (.mul (.var 1) (.add (.num 1 1) (.var 2))) (.mul (.add (.num 1 1) (.var 1)) (.add (.add (.add (.num 30 1) (.mul (.num 47 1) (.var 2))) (.mul (.num 24 1) (.pow (.var 2) 2))) (.mul (.num 4 1) (.pow (.var 2) 3)))))))) (.mul (.num 6 1) (.sqrt (.div (.var 1) (.mul (.add (.num 1 1) (.var 1)) (.add (.add (.add (.add (.num 30 1) (.mul (.num 77 1) (.var 2))) (.mul (.num 71 1) (.pow (.var 2) 2))) (.mul (.num 28 1) (.pow (.var 2) 3))) (.mul (.num 4 1) (.pow (.var 2) 4)))))))) (.mul (.mul (.num 6 1) (.add (.num 1 1) (.mul (.num 2 1) (.var 2)))) (.sqrt (.div (.var 1) (.mul (.add (.num 1 1) (.var 1)) (.add (.add (.add (.add (.num 30 1) (.mul (.num 77 1) (.var 2))) (.mul (.num 71 1) (.pow (.var 2) 2))) (.mul (.num 28 1) (.pow (.var 2) 3))) (.mul (.num 4 1) (.pow (.var 2) 4)))))))),
  .div (.num 1 1) (.sqrt (.div (.mul (.var 1) (.add (.num 1 1) (.mul (.num 2 1) (.var 1)))) (.add (.add (.neg (.num 3 1)) (.var 1)) (.mul (.num 2 1) (.pow (.var 1) 2))))),
  .neg (.div (.sqrt (.add (.add (.num 9 1) (.mul (.num 15 1) (.var 1))) (.mul (.num 6 1) (.pow (.var 1) 2)))) (.add (.add (.num 1 1) (.mul (.num 3 1) (.var 1))) (.mul (.num 2 1) (.pow (.var 1) 2)))),
  .div (.sqrt (.mul (.mul (.mul (.var 1) (.add (.num 2 1) (.var 1))) (.add (.neg (.num 1 1)) (.mul (.num 2 1) (.var 1)))) (.add (.num 3 1) (.mul (.num 2 1) (.var 1))))) (.mul (.add (.num 1 1) (.var 1)) (.add (.num 1 1) (.mul (.num 2 1) (.var 1)))),
  .div (.sqrt (.num 3 1)) (.mul (.sqrt (.mul (.var 1) (.add (.num 1 1) (.var 1)))) (.add (.num 1 1) (.mul (.num 2 1) (.var 1)))),
  .div (.mul (.neg (.num 4 1)) (.add (.mul (.num 2 1) (.sqrt (.mul (.mul (.var 1) (.add (.num 2 1) (.var 1))) (.add (.num 3 1) (.mul (.num 2 1) (.var 1)))))) (.sqrt (.mul (.mul (.pow (.var 1) 3) (.add (.num 2 1) (.var 1))) (.add (.num 3 1) (.mul (.num 2 1) (.var 1))))))) (.mul (.mul (.mul (.sqrt (.add (.num 1 1) (.var 1))) (.add (.num 2 1) (.var 1))) (.add (.num 1 1) (.mul (.num 2 1) (.var 1)))) (.add (.num 3 1) (.mul (.num 2 1) (.var 1)))),
  .sqrt (.div (.mul (.var 1) (.add (.num 5 1) (.mul (.num 2 1) (.var 1)))) (.add (.add (.num 3 1) (.mul (.num 5 1) (.var 1))) (.mul (.num 2 1) (.pow (.var 1) 2)))),
  .div (.sqrt (.num 3 1)) (.mul (.add (.num 1 1) (.var 1)) (.sqrt (.add (.num 3 1) (.mul (.mul (.num 4 1) (.var 1)) (.add (.num 2 1) (.var 1)))))),
  .neg (.div (.sqrt (.num 3 1)) (.sqrt (.mul (.add (.num 1 1) (.var 1)) (.add (.num 3 1) (.mul (.num 2 1) (.var 1)))))),
  .div (.sqrt (.mul (.mul (.var 1) (.add (.num 1 1) (.var 1))) (.add (.neg (.num 1 1)) (.mul (.num 4 1) (.pow (.var 1) 2))))) (.mul (.var 1) (.add (.num 1 1) (.mul (.num 2 1) (.var 1)))),
  .div (.num 1 1) (.var 1),
  .div (.num 1 1) (.add (.var 1) (.mul (.num 2 1) (.pow (.var 1) 2))),
  .div (.mul (.sqrt (.add (.num 1 1) (.mul (.num 2 1) (.var 2)))) (.add (.add (.add (.add (.add (.sqrt (.div (.mul (.mul (.mul (.mul (.mul (.var 1) (.add (.num 1 1) (.var 1))) (.add (.neg (.num 1 1)) (.mul (.num 2 1) (.var 1)))) (.add (.num 1 1) (.mul (.num 2 1) (.var 1)))) (.add (.num 1 1) (.var 2))) (.add (.num 3 1) (.mul (.num 2 1) (.var 2)))) (.add (.num 1 1) (.mul (.num 2 1) (.var 2))))) (.sqrt (.div (.mul (.mul (.mul (.mul (.mul (.pow (.var 1) 3) (.add (.num 1 1) (.var 1))) (.add (.neg (.num 1 1)) (.mul (.num 2 1) (.var 1)))) (.add (.num 1 1) (.mul (.num 2 1) (.var 1)))) (.add (.num 1 1) (.var 2))) (.add (.num 3 1) (.mul (.num 2 1) (.var 2)))) (.add (.num 1 1) (.mul (.num 2 1) (.var 2)))))) (.sqrt (.mul (.mul (.mul (.mul (.mul (.mul (.var 1) (.add (.num 1 1) (.var 1))) (.add (.neg (.num 1 1)) (.mul (.num 2 1) (.var 1)))) (.add (.num 1 1) (.mul (.num 2 1) (.var 1)))) (.add (.num 1 1) (.var 2))) (.add (.num 1 1) (.mul (.num 2 1) (.var 2)))) (.add (.num 3 1) (.mul (.num 2 1) (.var 2)))))) (.sqrt (.mul (.mul (.mul (.mul (.mul (.mul (.pow (.var 1) 3) (.add (.num 1 1) (.var 1))) (.add (.neg (.num 1 1)) (.mul (.num 2 1) (.var 1)))) (.add (.num 1 1) (.mul (.num 2 1) (.var 1)))) (.add (.num 1 1) (.var 2))) (.add (.num 1 1) (.mul (.num 2 1) (.var 2)))) (.add (.num 3 1) (.mul (.num 2 1) (.var 2)))))) (.sqrt (.mul (.mul (.mul (.mul (.mul (.var 1) (.add (.num 1 1) (.var 1))) (.add (.neg (.num 1 1)) (.mul (.num 2 1) (.var 1)))) (.add (.num 1 1) (.mul (.num 2 1) (.var 1)))) (.pow (.add (.num 1 1) (.var 2)) 3)) (.add (.num 3 1) (.mul (.mul (.num 4 1) (.var 2)) (.add (.num 2 1) (.var 2))))))) (.mul (.var 1) (.sqrt (.mul (.mul (.mul (.mul (.mul (.var 1) (.add (.num 1 1) (.var 1))) (.add (.neg (.num 1 1)) (.mul (.num 2 1) (.var 1)))) (.add (.num 1 1) (.mul (.num 2 1) (.var 1)))) (.pow (.add (.num 1 1) (.var 2)) 3)) (.add (.num 3 1) (.mul (.mul (.num 4 1) (.var 2)) (.add (.num 2 1) (.var 2))))))))) (.mul (.add (.num 1 1) (.mul (.num 2 1) (.var 1))) (.hpow (.mul (.mul (.mul (.var 1) (.add (.num 1 1) (.var 1))) (.add (.num 1 1) (.var 2))) (.add (.num 3 1) (.mul (.num 2 1) (.var 2)))) 1)),
  .div (.add (.add (.sqrt (.mul (.mul (.mul (.var 1) (.add (.num 1 1) (.var 1))) (.add (.neg (.num 1 1)) (.mul (.num 2 1) (.var 1)))) (.add (.num 1 1) (.mul (.num 2 1) (.var 1))))) (.sqrt (.div (.mul (.var 1) (.add (.neg (.num 1 1)) (.mul (.num 2 1) (.var 1)))) (.add (.add (.num 1 1) (.mul (.num 3 1) (.var 1))) (.mul (.num 2 1) (.pow (.var 1) 2)))))) (.sqrt (.div (.mul (.var 1) (.add (.neg (.num 1 1)) (.mul (.num 4 1) (.pow (.var 1) 2)))) (.add (.num 1 1) (.var 1))))) (.sqrt (.mul (.mul (.mul (.var 1) (.add (.num 1 1) (.var 1))) (.add (.num 1 1) (.mul (.num 2 1) (.var 1)))) (.add (.num 3 1) (.mul (.num 2 1) (.var 1))))),
  .div (.add (.mul (.var 2) (.sqrt (.mul (.mul (.mul (.mul (.mul (.pow (.var 1) 2) (.pow (.var 2) 3)) (.pow (.add (.num 1 1) (.var 2)) 4)) (.pow (.add (.num 2 1) (.var 2)) 3)) (.add (.num 1 1) (.mul (.num 2 1) (.var 2)))) (.pow (.add (.num 3 1) (.mul (.num 2 1) (.var 2))) 3)))) (.div (.mul (.mul (.mul (.mul (.mul (.mul (.num 6 1) (.var 1)) (.var 2)) (.add (.num 1 1) (.var 2))) (.add (.num 2 1) (.var 2))) (.add (.num 3 1) (.mul (.num 2 1) (.var 2)))) (.add (.add (.sqrt (.mul (.mul (.var 2) (.add (.num 2 1) (.var 2))) (.add (.num 3 1) (.mul (.num 2 1) (.var 2))))) (.mul (.num 2 1) (.sqrt (.mul (.mul (.pow (.var 2) 3) (.add (.num 2 1) (.var 2))) (.add (.num 3 1) (.mul (.num 2 1) (.var 2))))))) (.sqrt (.mul (.mul (.pow (.var 2) 5) (.add (.num 2 1) (.var 2))) (.add (.num 3 1) (.mul (.num 2 1) (.var 2))))))) (.sqrt (.add (.num 1 1) (.mul (.num 2 1) (.var 2)))))) (.sqrt (.div (.mul (.mul (.mul (.mul (.mul (.pow (.var 1) 3) (.add (.num 1 1) (.mul (.num 2 1) (.var 1)))) (.pow (.var 2) 3)) (.pow (.add (.num 1 1) (.var 2)) 4)) (.pow (.add (.num 2 1) (.var 2)) 5)) (.pow (.add (.num 3 1) (.mul (.num 2 1) (.var 2))) 5)) (.add (.num 1 1) (.mul (.num 2 1) (.var 2))))),
  .div (.mul (.sqrt (.div (.add (.num 1 1) (.mul (.num 2 1) (.var 2))) (.add (.num 1 1) (.mul (.num 2 1) (.var 1))))) (.add (.mul (.mul (.var 2) (.sqrt (.mul (.mul (.var 1) (.add (.num 1 1) (.mul (.num 2 1) (.var 2)))) (.add (.num 5 1) (.mul (.num 2 1) (.var 2)))))) (.add (.num 29 1) (.mul (.var 2) (.add (.num 13 1) (.mul (.num 2 1) (.var 2)))))) (.mul (.num 6 1) (.add (.mul (.num 4 1) (.sqrt (.mul (.mul (.var 1) (.add (.num 1 1) (.mul (.num 2 1) (.var 2)))) (.add (.num 5 1) (.mul (.num 2 1) (.var 2)))))) (.sqrt (.add (.var 1) (.div (.mul (.num 4 1) (.var 1)) (.add (.num 1 1) (.mul (.num 2 1) (.var 2)))))))))) (.mul (.mul (.mul (.mul (.var 1) (.add (.num 1 1) (.var 2))) (.add (.num 2 1) (.var 2))) (.add (.num 3 1) (.mul (.num 2 1) (.var 2)))) (.hpow (.add (.num 5 1) (.mul (.num 2 1) (.var 2))) 1)),
  .mul (.add (.num 1 1) (.var 1)) (.sqrt (.div (.add (.neg (.num 1 1)) (.mul (.num 2 1) (.var 1))) (.add (.add (.var 1) (.mul (.num 3 1) (.pow (.var 1) 2))) (.mul (.num 2 1) (.pow (.var 1) 3))))),
  .div (.sqrt (.num 3 1)) (.sqrt (.mul (.var 1) (.add (.neg (.num 1 1)) (.mul (.num 2 1) (.var 1))))),
  .div (.sqrt (.num 3 1)) (.mul (.var 1) (.sqrt (.add (.neg (.num 1 1)) (.mul (.num 4 1) (.pow (.var 1) 2))))),
  .div (.add (.num 1 1) (.var 1)) (.sqrt (.div (.mul (.var 1) (.add (.add (.neg (.num 1 1)) (.var 1)) (.mul (.num 2 1) (.pow (.var 1) 2)))) (.add (.neg (.num 3 1)) (.mul (.num 2 1) (.var 1))))),
  .div (.mul (.num 4 1) (.sqrt (.add (.sub (.add (.neg (.num 2 1)) (.div (.num 1 1) (.var 1))) (.var 1)) (.mul (.num 2 1) (.pow (.var 1) 2))))) (.add (.neg (.num 1 1)) (.mul (.num 4 1) (.pow (.var 1) 2))),
  .div (.add (.mul (.num 3 1) (.sqrt (.add (.div (.num 3 1) (.add (.num 1 1) (.mul (.num 2 1) (.var 1)))) (.mul (.var 1) (.add (.add (.neg (.num 4 1)) (.var 1)) (.mul (.num 2 1) (.pow (.var 1) 2))))))) (.mul (.mul (.add (.neg (.num 1 1)) (.var 1)) (.var 1)) (.add (.sqrt (.div (.mul (.mul (.mul (.add (.num 1 1) (.var 1)) (.add (.neg (.num 1 1)) (.mul (.num 2 1) (.var 1)))) (.add (.num 1 1) (.mul (.num 2 1) (.var 1)))) (.add (.num 3 1) (.mul (.num 2 1) (.var 1)))) (.add (.neg (.num 1 1)) (.var 1)))) (.mul (.num 4 1) (.sqrt (.add (.add (.add (.num 5 1) (.div (.num 10 1) (.mul (.num 3 1) (.add (.neg (.num 1 1)) (.var 1))))) (.mul (.num 2 1) (.var 1))) (.div (.num 4 1) (.add (.num 3 1) (.mul (.num 6 1) (.var 1)))))))))) (.mul (.mul (.mul (.var 1) (.add (.num 1 1) (.var 1))) (.sqrt (.add (.num 1 1) (.mul (.num 2 1) (.var 1))))) (.add (.num 3 1) (.mul (.num 2 1) (.var 1)))),
  .div (.mul (.sqrt (.num 3 1)) (.add (.add (.sqrt (.mul (.mul (.mul (.mul (.pow (.var 1) 3) (.add (.num 1 1) (.var 1))) (.add (.neg (.num 1 1)) (.mul (.num 2 1) (.var 1)))) (.add (.num 1 1) (.mul (.num 2 1) (.var 1)))) (.add (.num 3 1) (.mul (.num 2 1) (.var 1))))) (.mul (.num 3 1) (.sqrt (.div (.mul (.var 1) (.add (.neg (.num 3 1)) (.mul (.var 1) (.add (.num 1 1) (.mul (.mul (.num 4 1) (.var 1)) (.add (.num 2 1) (.var 1))))))) (.add (.num 1 1) (.mul (.num 2 1) (.var 1))))))) (.mul (.mul (.num 4 1) (.var 1)) (.sqrt (.div (.mul (.var 1) (.add (.neg (.num 3 1)) (.mul (.var 1) (.add (.num 1 1) (.mul (.mul (.num 4 1) (.var 1)) (.add (.num 2 1) (.var 1))))))) (.add (.num 1 1) (.mul (.num 2 1) (.var 1)))))))) (.mul (.mul (.var 1) (.sqrt (.add (.num 1 1) (.mul (.num 2 1) (.var 1))))) (.hpow (.mul (.add (.num 1 1) (.var 1)) (.add (.num 3 1) (.mul (.num 2 1) (.var 1)))) 1)),
  .div (.add (.add (.add (.add (.mul (.num 3 1) (.sqrt (.div (.mul (.var 1) (.add (.add (.neg (.num 1 1)) (.var 1)) (.mul (.num 2 1) (.pow (.var 1) 2)))) (.add (.num 3 1) (.mul (.num 2 1) (.var 1)))))) (.mul (.mul (.num 6 1) (.var 1)) (.sqrt (.div (.mul (.var 1) (.add (.add (.neg (.num 1 1)) (.var 1)) (.mul (.num 2 1) (.pow (.var 1) 2)))) (.add (.num 3 1) (.mul (.num 2 1) (.var 1))))))) (.mul (.num 3 1) (.sqrt (.div (.mul (.var 1) (.add (.neg (.num 1 1)) (.mul (.num 2 1) (.var 1)))) (.add (.add (.num 3 1) (.mul (.num 5 1) (.var 1))) (.mul (.num 2 1) (.pow (.var 1) 2))))))) (.mul (.mul (.num 3 1) (.add (.num 1 1) (.mul (.num 2 1) (.var 1)))) (.sqrt (.div (.mul (.var 1) (.add (.neg (.num 1 1)) (.mul (.num 2 1) (.var 1)))) (.add (.add (.num 3 1) (.mul (.num 5 1) (.var 1))) (.mul (.num 2 1) (.pow (.var 1) 2))))))) (.mul (.add (.num 1 1) (.mul (.num 2 1) (.var 1))) (.sqrt (.mul (.var 1) (.add (.neg (.num 3 1)) (.mul (.var 1) (.add (.num 1 1) (.mul (.mul (.num 4 1) (.var 1)) (.add (.num 2 1) (.var 1)))))))))) (.mul (.mul (.num 2 1) (.add (.num 1 1) (.var 1))) (.sqrt (.mul (.mul (.mul (.var 1) (.add (.num 2 1) (.var 1))) (.add (.num 1 1) (.mul (.num 2 1) (.var 1)))) (.add (.num 3 1) (.mul (.num 2 1) (.var 1)))))),
  .div (.add (.add (.add (.add (.add (.add (.add (.add (.add (.add (.add (.add (.add (.add (.add (.mul (.num 18 1) (.sqrt (.mul (.mul (.mul (.var 1) (.add (.num 1 1) (.var 1))) (.var 2)) (.add (.num 3 1) (.mul (.num 2 1) (.var 2)))))) (.mul (.mul (.mul (.num 12 1) (.var 2)) (.add (.num 3 1) (.var 2))) (.sqrt (.mul (.mul (.mul (.var 1) (.add (.num 1 1) (.var 1))) (.var 2)) (.add (.num 3 1) (.mul (.num 2 1) (.var 2))))))) (.mul (.num 36 1) (.sqrt (.mul (.mul (.mul (.pow (.var 1) 3) (.add (.num 1 1) (.var 1))) (.var 2)) (.add (.num 3 1) (.mul (.num 2 1) (.var 2))))))) (.mul (.num 18 1) (.sqrt (.mul (.mul (.mul (.pow (.var 1) 5) (.add (.num 1 1) (.var 1))) (.var 2)) (.add (.num 3 1) (.mul (.num 2 1) (.var 2))))))) (.mul (.num 15 1) (.sqrt (.mul (.mul (.mul (.var 1) (.add (.num 1 1) (.var 1))) (.pow (.var 2) 3)) (.add (.num 3 1) (.mul (.num 2 1) (.var 2))))))) (.mul (.num 102 1) (.sqrt (.mul (.mul (.mul (.pow (.var 1) 3) (.add (.num 1 1) (.var 1))) (.pow (.var 2) 3)) (.add (.num 3 1) (.mul (.num 2 1) (.var 2))))))) (.mul (.num 51 1) (.sqrt (.mul (.mul (.mul (.pow (.var 1) 5) (.add (.num 1 1) (.var 1))) (.pow (.var 2) 3)) (.add (.num 3 1) (.mul (.num 2 1) (.var 2))))))) (.mul (.num 41 1) (.sqrt (.mul (.mul (.mul (.var 1) (.add (.num 1 1) (.var 1))) (.pow (.var 2) 5)) (.add (.num 3 1) (.mul (.num 2 1) (.var 2))))))) (.mul (.num 106 1) (.sqrt (.mul (.mul (.mul (.pow (.var 1) 3) (.add (.num 1 1) (.var 1))) (.pow (.var 2) 5)) (.add (.num 3 1) (.mul (.num 2 1) (.var 2))))))) (.mul (.num 53 1) (.sqrt (.mul (.mul (.mul (.pow (.var 1) 5) (.add (.num 1 1) (.var 1))) (.pow (.var 2) 5)) (.add (.num 3 1) (.mul (.num 2 1) (.var 2))))))) (.mul (.num 24 1) (.sqrt (.mul (.mul (.mul (.var 1) (.add (.num 1 1) (.var 1))) (.pow (.var 2) 7)) (.add (.num 3 1) (.mul (.num 2 1) (.var 2))))))) (.mul (.num 48 1) (.sqrt (.mul (.mul (.mul (.pow (.var 1) 3) (.add (.num 1 1) (.var 1))) (.pow (.var 2) 7)) (.add (.num 3 1) (.mul (.num 2 1) (.var 2))))))) (.mul (.num 24 1) (.sqrt (.mul (.mul (.mul (.pow (.var 1) 5) (.add (.num 1 1) (.var 1))) (.pow (.var 2) 7)) (.add (.num 3 1) (.mul (.num 2 1) (.var 2))))))) (.mul (.num 4 1) (.sqrt (.mul (.mul (.mul (.var 1) (.add (.num 1 1) (.var 1))) (.pow (.var 2) 9)) (.add (.num 3 1) (.mul (.num 2 1) (.var 2))))))) (.mul (.num 8 1) (.sqrt (.mul (.mul (.mul (.pow (.var 1) 3) (.add (.num 1 1) (.var 1))) (.pow (.var 2) 9)) (.add (.num 3 1) (.mul (.num 2 1) (.var 2))))))) (.mul (.num 4 1) (.sqrt (.mul (.mul (.mul (.pow (.var 1) 5) (.add (.num 1 1) (.var 1))) (.pow (.var 2) 9)) (.add (.num 3 1) (.mul (.num 2 1) (.var 2))))))) (.mul (.mul (.pow (.add (.num 1 1) (.var 2)) 2) (.sqrt (.mul (.var 1) (.add (.num 2 1) (.var 2))))) (.hpow (.mul (.add (.num 1 1) (.var 1)) (.add (.num 3 1) (.mul (.num 2 1) (.var 2)))) 2)),
  .mul (.add (.add (.mul (.add (.num 1 1) (.mul (.num 2 1) (.var 1))) (.sqrt (.div (.mul (.add (.num 1 1) (.var 1)) (.add (.neg (.num 1 1)) (.var 2))) (.mul (.add (.num 3 1) (.mul (.num 2 1) (.var 1))) (.var 2))))) (.sqrt (.div (.add (.neg (.num 1 1)) (.var 2)) (.mul (.add (.add (.num 3 1) (.mul (.num 5 1) (.var 1))) (.mul (.num 2 1) (.pow (.var 1) 2))) (.var 2))))) (.mul (.add (.num 1 1) (.mul (.num 2 1) (.var 1))) (.sqrt (.div (.add (.neg (.num 1 1)) (.var 2)) (.mul (.add (.add (.num 3 1) (.mul (.num 5 1) (.var 1))) (.mul (.num 2 1) (.pow (.var 1) 2))) (.var 2)))))) (.sqrt (.div (.add (.num 1 1) (.var 2)) (.add (.add (.mul (.num 3 1) (.var 2)) (.mul (.mul (.num 5 1) (.var 1)) (.var 2))) (.mul (.mul (.num 2 1) (.pow (.var 1) 2)) (.var 2))))),
  .mul (.sqrt (.div (.add (.num 1 1) (.var 2)) (.mul (.mul (.add (.add (.num 3 1) (.mul (.num 5 1) (.var 1))) (.mul (.num 2 1) (.pow (.var 1) 2))) (.var 2)) (.add (.num 1 1) (.mul (.num 2 1) (.var 2)))))) (.add (.add (.sqrt (.div (.add (.neg (.num 1 1)) (.mul (.num 2 1) (.var 2))) (.mul (.mul (.add (.add (.num 3 1) (.mul (.num 5 1) (.var 1))) (.mul (.num 2 1) (.pow (.var 1) 2))) (.var 2)) (.add (.num 1 1) (.var 2))))) (.mul (.add (.num 1 1) (.mul (.num 2 1) (.var 1))) (.sqrt (.div (.add (.neg (.num 1 1)) (.mul (.num 2 1) (.var 2))) (.mul (.mul (.add (.add (.num 3 1) (.mul (.num 5 1) (.var 1))) (.mul (.num 2 1) (.pow (.var 1) 2))) (.var 2)) (.add (.num 1 1) (.var 2))))))) (.mul (.add (.num 1 1) (.mul (.num 2 1) (.var 1))) (.sqrt (.div (.mul (.add (.num 1 1) (.var 1)) (.add (.neg (.num 1 1)) (.mul (.num 2 1) (.var 2)))) (.mul (.add (.num 3 1) (.mul (.num 2 1) (.var 1))) (.add (.var 2) (.pow (.var 2) 2))))))),
  .neg (.mul (.mul (.sqrt (.num 2 1)) (.sqrt (.div (.num 1 1) (.mul (.mul (.mul (.var 2) (.pow (.add (.num 1 1) (.var 2)) 2)) (.add (.num 5 1) (.mul (.num 2 1) (.var 2)))) (.pow (.add (.add (.num 6 1) (.mul (.num 7 1) (.var 2))) (.mul (.num 2 1) (.pow (.var 2) 2))) 3))))) (.add (.add (.add (.mul (.num 30 1) (.sqrt (.mul (.var 2) (.add (.num 1 1) (.var 2))))) (.mul (.num 47 1) (.sqrt (.mul (.pow (.var 2) 3) (.add (.num 1 1) (.var 2)))))) (.mul (.num 24 1) (.sqrt (.mul (.pow (.var 2) 5) (.add (.num 1 1) (.var 2)))))) (.mul (.num 4 1) (.sqrt (.mul (.pow (.var 2) 7) (.add (.num 1 1) (.var 2))))))),
  .div (.mul (.sqrt (.num 2 1)) (.add (.neg (.num 3 1)) (.mul (.num 2 1) (.var 2)))) (.sqrt (.mul (.mul (.mul (.add (.neg (.num 1 1)) (.var 2)) (.var 2)) (.add (.neg (.num 3 1)) (.mul (.num 2 1) (.var 2)))) (.add (.neg (.num 1 1)) (.mul (.num 2 1) (.var 2))))),
  .div (.add (.neg (.num 3 1)) (.pow (.var 2) 2)) (.mul (.var 2) (.sqrt (.add (.neg (.num 1 1)) (.pow (.var 2) 2)))),
  .div (.mul (.sqrt (.div (.add (.num 3 1) (.mul (.num 6 1) (.var 1))) (.mul (.mul (.mul (.pow (.add (.num 1 1) (.var 1)) 3) (.pow (.var 2) 2)) (.pow (.add (.num 1 1) (.var 2)) 2)) (.add (.num 3 1) (.mul (.mul (.num 4 1) (.var 2)) (.add (.num 2 1) (.var 2))))))) (.add (.mul (.mul (.var 2) (.add (.neg (.num 5 1)) (.mul (.num 2 1) (.var 2)))) (.add (.sqrt (.div (.mul (.add (.num 1 1) (.var 1)) (.add (.num 1 1) (.var 2))) (.mul (.add (.num 1 1) (.mul (.num 2 1) (.var 1))) (.add (.neg (.num 1 1)) (.var 2))))) (.sqrt (.div (.mul (.mul (.add (.num 1 1) (.var 1)) (.add (.num 1 1) (.mul (.num 2 1) (.var 1)))) (.add (.num 1 1) (.var 2))) (.add (.neg (.num 1 1)) (.var 2)))))) (.mul (.num 3 1) (.add (.add (.add (.sqrt (.div (.mul (.add (.num 1 1) (.var 1)) (.add (.num 1 1) (.var 2))) (.mul (.add (.num 1 1) (.mul (.num 2 1) (.var 1))) (.add (.neg (.num 1 1)) (.var 2))))) (.sqrt (.div (.mul (.mul (.add (.num 1 1) (.var 1)) (.add (.num 1 1) (.mul (.num 2 1) (.var 1)))) (.add (.num 1 1) (.var 2))) (.add (.neg (.num 1 1)) (.var 2))))) (.mul (.num 2 1) (.sqrt (.div (.mul (.add (.num 1 1) (.var 1)) (.add (.neg (.num 1 1)) (.pow (.var 2) 2))) (.add (.num 1 1) (.mul (.num 2 1) (.var 1))))))) (.mul (.num 2 1) (.sqrt (.mul (.mul (.add (.num 1 1) (.var 1)) (.add (.num 1 1) (.mul (.num 2 1) (.var 1)))) (.add (.neg (.num 1 1)) (.pow (.var 2) 2))))))))) (.num 2 1),
  .div (.mul (.sqrt (.div (.add (.num 3 1) (.mul (.num 3 1) (.var 2))) (.add (.var 2) (.mul (.var 1) (.var 2))))) (.add (.mul (.mul (.var 2) (.sqrt (.div (.mul (.mul (.mul (.add (.num 1 1) (.var 1)) (.add (.num 1 1) (.var 2))) (.add (.num 2 1) (.var 2))) (.add (.num 3 1) (.mul (.num 2 1) (.var 2)))) (.add (.neg (.num 1 1)) (.mul (.num 2 1) (.var 2)))))) (.add (.neg (.num 19 1)) (.mul (.mul (.num 4 1) (.var 2)) (.add (.num 3 1) (.var 2))))) (.mul (.num 6 1) (.add (.sqrt (.div (.mul (.mul (.mul (.add (.num 1 1) (.var 1)) (.add (.num 1 1) (.var 2))) (.add (.num 2 1) (.var 2))) (.add (.num 3 1) (.mul (.num 2 1) (.var 2)))) (.add (.neg (.num 1 1)) (.mul (.num 2 1) (.var 2))))) (.mul (.num 2 1) (.sqrt (.mul (.mul (.mul (.mul (.add (.num 1 1) (.var 1)) (.add (.num 1 1) (.var 2))) (.add (.num 2 1) (.var 2))) (.add (.neg (.num 1 1)) (.mul (.num 2 1) (.var 2)))) (.add (.num 3 1) (.mul (.num 2 1) (.var 2)))))))))) (.mul (.mul (.pow (.add (.num 1 1) (.var 2)) 2) (.add (.num 2 1) (.var 2))) (.pow (.add (.num 3 1) (.mul (.num 2 1) (.var 2))) 2)),
  .div (.mul (.mul (.sqrt (.num 3 1)) (.sqrt (.add (.num 1 1) (.var 2)))) (.add (.add (.add (.add (.add (.add (.sub (.div (.mul (.mul (.mul (.add (.num 1 1) (.mul (.num 2 1) (.var 1))) (.add (.neg (.num 3 1)) (.var 2))) (.var 2)) (.add (.neg (.num 1 1)) (.mul (.num 2 1) (.var 2)))) (.mul (.mul (.mul (.add (.num 1 1) (.var 1)) (.hpow (.add (.num 1 1) (.var 2)) 1)) (.sqrt (.div (.mul (.mul (.var 2) (.add (.num 2 1) (.var 2))) (.add (.neg (.num 1 1)) (.mul (.num 2 1) (.var 2)))) (.add (.num 1 1) (.mul (.num 2 1) (.var 2)))))) (.add (.num 3 1) (.mul (.num 2 1) (.var 2))))) (.div (.mul (.mul (.add (.num 1 1) (.mul (.num 2 1) (.var 1))) (.var 2)) (.add (.neg (.num 1 1)) (.mul (.num 2 1) (.var 2)))) (.mul (.mul (.add (.num 1 1) (.var 1)) (.sqrt (.div (.mul (.mul (.mul (.var 2) (.add (.num 1 1) (.var 2))) (.add (.num 2 1) (.var 2))) (.add (.neg (.num 1 1)) (.mul (.num 2 1) (.var 2)))) (.add (.num 1 1) (.mul (.num 2 1) (.var 2)))))) (.add (.num 3 1) (.mul (.num 2 1) (.var 2)))))) (.div (.mul (.mul (.mul (.num 3 1) (.add (.num 1 1) (.mul (.num 2 1) (.var 1)))) (.var 2)) (.add (.neg (.num 3 1)) (.mul (.num 2 1) (.var 2)))) (.mul (.mul (.mul (.add (.num 1 1) (.var 1)) (.hpow (.add (.num 1 1) (.var 2)) 1)) (.sqrt (.div (.mul (.mul (.var 2) (.add (.num 2 1) (.var 2))) (.add (.num 1 1) (.mul (.num 2 1) (.var 2)))) (.add (.neg (.num 1 1)) (.mul (.num 2 1) (.var 2)))))) (.add (.num 3 1) (.mul (.num 2 1) (.var 2)))))) (.div (.mul (.mul (.num 6 1) (.add (.num 1 1) (.mul (.num 2 1) (.var 1)))) (.add (.neg (.num 1 1)) (.var 2))) (.mul (.mul (.mul (.add (.num 1 1) (.var 1)) (.add (.num 1 1) (.var 2))) (.sqrt (.div (.mul (.mul (.mul (.var 2) (.add (.num 1 1) (.var 2))) (.add (.num 2 1) (.var 2))) (.add (.num 1 1) (.mul (.num 2 1) (.var 2)))) (.add (.neg (.num 1 1)) (.mul (.num 2 1) (.var 2)))))) (.add (.num 3 1) (.mul (.num 2 1) (.var 2)))))) (.mul (.mul (.mul (.add (.neg (.num 3 1)) (.var 2)) (.var 2)) (.add (.neg (.num 1 1)) (.mul (.num 2 1) (.var 2)))) (.sqrt (.div (.add (.num 1 1) (.mul (.num 2 1) (.var 2))) (.mul (.mul (.mul (.mul (.pow (.add (.num 1 1) (.var 1)) 2) (.var 2)) (.pow (.add (.num 1 1) (.var 2)) 3)) (.pow (.add (.num 3 1) (.mul (.num 2 1) (.var 2))) 2)) (.add (.add (.neg (.num 2 1)) (.mul (.num 3 1) (.var 2))) (.mul (.num 2 1) (.pow (.var 2) 2)))))))) (.div (.mul (.mul (.sub (.num 1 1) (.mul (.num 2 1) (.var 2))) (.var 2)) (.sqrt (.div (.add (.num 1 1) (.mul (.num 2 1) (.var 2))) (.mul (.var 2) (.add (.add (.add (.neg (.num 2 1)) (.var 2)) (.mul (.num 5 1) (.pow (.var 2) 2))) (.mul (.num 2 1) (.pow (.var 2) 3))))))) (.mul (.add (.num 1 1) (.var 1)) (.add (.num 3 1) (.mul (.num 2 1) (.var 2)))))) (.div (.mul (.mul (.num 6 1) (.add (.neg (.num 1 1)) (.var 2))) (.sqrt (.div (.add (.neg (.num 1 1)) (.mul (.num 2 1) (.var 2))) (.mul (.var 2) (.add (.add (.add (.num 2 1) (.mul (.num 7 1) (.var 2))) (.mul (.num 7 1) (.pow (.var 2) 2))) (.mul (.num 2 1) (.pow (.var 2) 3))))))) (.mul (.add (.num 1 1) (.var 1)) (.add (.add (.num 3 1) (.mul (.num 5 1) (.var 2))) (.mul (.num 2 1) (.pow (.var 2) 2)))))) (.div (.mul (.mul (.num 3 1) (.add (.neg (.num 3 1)) (.mul (.num 2 1) (.var 2)))) (.sqrt (.div (.mul (.var 2) (.add (.neg (.num 1 1)) (.mul (.num 2 1) (.var 2)))) (.add (.add (.add (.num 2 1) (.mul (.num 7 1) (.var 2))) (.mul (.num 7 1) (.pow (.var 2) 2))) (.mul (.num 2 1) (.pow (.var 2) 3)))))) (.mul (.add (.num 1 1) (.var 1)) (.add (.add (.num 3 1) (.mul (.num 5 1) (.var 2))) (.mul (.num 2 1) (.pow (.var 2) 2))))))) (.num 2 1),
  .div (.add (.mul (.num 30 1) (.add (.sqrt (.div (.mul (.mul (.mul (.pow (.add (.num 1 1) (.var 1)) 5) (.add (.num 5 1) (.mul (.num 2 1) (.var 2)))) (.pow (.add (.var 2) (.pow (.var 2) 2)) 3)) (.pow (.add (.add (.num 6 1) (.mul (.num 7 1) (.var 2))) (.mul (.num 2 1) (.pow (.var 2) 2))) 5)) (.pow (.add (.num 1 1) (.mul (.num 2 1) (.var 2))) 2))) (.sqrt (.div (.mul (.mul (.mul (.pow (.add (.num 1 1) (.var 1)) 5) (.add (.num 5 1) (.mul (.num 2 1) (.var 2)))) (.pow (.add (.var 2) (.pow (.var 2) 2)) 3)) (.pow (.add (.add (.num 6 1) (.mul (.num 7 1) (.var 2))) (.mul (.num 2 1) (.pow (.var 2) 2))) 5)) (.mul (.pow (.add (.num 1 1) (.mul (.num 2 1) (.var 1))) 2) (.pow (.add (.num 1 1) (.mul (.num 2 1) (.var 2))) 2)))))) (.mul (.var 2) (.add (.add (.add (.add (.add (.mul (.num 2 1) (.sqrt (.mul (.mul (.mul (.mul (.mul (.pow (.add (.num 1 1) (.var 1)) 5) (.pow (.var 2) 3)) (.pow (.add (.num 1 1) (.var 2)) 5)) (.pow (.add (.num 2 1) (.var 2)) 5)) (.pow (.add (.num 3 1) (.mul (.num 2 1) (.var 2))) 5)) (.add (.num 5 1) (.mul (.num 2 1) (.var 2)))))) (.mul (.num 2 1) (.sqrt (.div (.mul (.mul (.mul (.mul (.mul (.pow (.add (.num 1 1) (.var 1)) 5) (.pow (.var 2) 3)) (.pow (.add (.num 1 1) (.var 2)) 5)) (.pow (.add (.num 2 1) (.var 2)) 5)) (.pow (.add (.num 3 1) (.mul (.num 2 1) (.var 2))) 5)) (.add (.num 5 1) (.mul (.num 2 1) (.var 2)))) (.pow (.add (.num 1 1) (.mul (.num 2 1) (.var 1))) 2))))) (.mul (.num 9 1) (.sqrt (.mul (.mul (.mul (.pow (.add (.num 1 1) (.var 1)) 5) (.add (.num 5 1) (.mul (.num 2 1) (.var 2)))) (.pow (.add (.var 2) (.pow (.var 2) 2)) 3)) (.pow (.add (.add (.num 6 1) (.mul (.num 7 1) (.var 2))) (.mul (.num 2 1) (.pow (.var 2) 2))) 5))))) (.mul (.num 9 1) (.sqrt (.div (.mul (.mul (.mul (.pow (.add (.num 1 1) (.var 1)) 5) (.add (.num 5 1) (.mul (.num 2 1) (.var 2)))) (.pow (.add (.var 2) (.pow (.var 2) 2)) 3)) (.pow (.add (.add (.num 6 1) (.mul (.num 7 1) (.var 2))) (.mul (.num 2 1) (.pow (.var 2) 2))) 5)) (.pow (.add (.num 1 1) (.mul (.num 2 1) (.var 1))) 2))))) (.mul (.num 36 1) (.sqrt (.div (.mul (.mul (.mul (.pow (.add (.num 1 1) (.var 1)) 5) (.add (.num 5 1) (.mul (.num 2 1) (.var 2)))) (.pow (.add (.var 2) (.pow (.var 2) 2)) 3)) (.pow (.add (.add (.num 6 1) (.mul (.num 7 1) (.var 2))) (.mul (.num 2 1) (.pow (.var 2) 2))) 5)) (.pow (.add (.num 1 1) (.mul (.num 2 1) (.var 2))) 2))))) (.mul (.num 36 1) (.sqrt (.div (.mul (.mul (.mul (.pow (.add (.num 1 1) (.var 1)) 5) (.add (.num 5 1) (.mul (.num 2 1) (.var 2)))) (.pow (.add (.var 2) (.pow (.var 2) 2)) 3)) (.pow (.add (.add (.num 6 1) (.mul (.num 7 1) (.var 2))) (.mul (.num 2 1) (.pow (.var 2) 2))) 5)) (.mul (.pow (.add (.num 1 1) (.mul (.num 2 1) (.var 1))) 2) (.pow (.add (.num 1 1) (.mul (.num 2 1) (.var 2))) 2)))))))) (.mul (.sqrt (.num 2 1)) (.sqrt (.div (.mul (.mul (.mul (.mul (.mul (.pow (.add (.num 1 1) (.var 1)) 7) (.pow (.var 2) 3)) (.pow (.add (.num 1 1) (.var 2)) 4)) (.pow (.add (.num 2 1) (.var 2)) 8)) (.pow (.add (.num 3 1) (.mul (.num 2 1) (.var 2))) 7)) (.pow (.add (.num 5 1) (.mul (.num 2 1) (.var 2))) 3)) (.mul (.pow (.add (.num 1 1) (.mul (.num 2 1) (.var 1))) 2) (.pow (.add (.num 1 1) (.mul (.num 2 1) (.var 2))) 2))))),
  .div (.mul (.sqrt (.div (.add (.num 2 1) (.mul (.num 4 1) (.var 2))) (.add (.add (.num 6 1) (.mul (.num 7 1) (.var 2))) (.mul (.num 2 1) (.pow (.var 2) 2))))) (.add (.mul (.neg (.num 6 1)) (.add (.add (.mul (.num 3 1) (.sqrt (.mul (.mul (.add (.num 1 1) (.var 2)) (.add (.num 1 1) (.mul (.num 2 1) (.var 2)))) (.add (.num 5 1) (.mul (.num 2 1) (.var 2)))))) (.sqrt (.div (.add (.num 5 1) (.mul (.num 2 1) (.var 2))) (.add (.add (.num 1 1) (.mul (.num 3 1) (.var 2))) (.mul (.num 2 1) (.pow (.var 2) 2)))))) (.sqrt (.sub (.add (.num 8 1) (.mul (.num 4 1) (.var 2))) (.div (.num 3 1) (.add (.num 1 1) (.var 2))))))) (.mul (.var 2) (.add (.add (.mul (.neg (.num 2 1)) (.sqrt (.mul (.mul (.add (.num 1 1) (.var 2)) (.add (.num 1 1) (.mul (.num 2 1) (.var 2)))) (.add (.num 5 1) (.mul (.num 2 1) (.var 2)))))) (.mul (.num 12 1) (.sqrt (.div (.add (.num 5 1) (.mul (.num 2 1) (.var 2))) (.add (.add (.num 1 1) (.mul (.num 3 1) (.var 2))) (.mul (.num 2 1) (.pow (.var 2) 2))))))) (.mul (.num 9 1) (.sqrt (.sub (.add (.num 8 1) (.mul (.num 4 1) (.var 2))) (.div (.num 3 1) (.add (.num 1 1) (.var 2)))))))))) (.mul (.mul (.add (.num 2 1) (.var 2)) (.add (.num 3 1) (.mul (.num 2 1) (.var 2)))) (.add (.num 5 1) (.mul (.num 2 1) (.var 2)))),
  .div (.add (.add (.mul (.num 3 1) (.add (.add (.add (.mul (.num 18 1) (.sqrt (.div (.mul (.mul (.mul (.add (.num 1 1) (.var 1)) (.var 2)) (.add (.num 1 1) (.mul (.num 2 1) (.var 2)))) (.add (.num 5 1) (.mul (.num 2 1) (.var 2)))) (.add (.num 2 1) (.var 2))))) (.mul (.num 3 1) (.sqrt (.div (.mul (.mul (.mul (.add (.num 1 1) (.var 1)) (.pow (.var 2) 3)) (.add (.num 1 1) (.mul (.num 2 1) (.var 2)))) (.add (.num 5 1) (.mul (.num 2 1) (.var 2)))) (.add (.num 2 1) (.var 2)))))) (.sqrt (.mul (.mul (.mul (.mul (.add (.num 1 1) (.var 1)) (.var 2)) (.add (.num 2 1) (.var 2))) (.add (.num 1 1) (.mul (.num 2 1) (.var 2)))) (.add (.num 5 1) (.mul (.num 2 1) (.var 2)))))) (.mul (.num 10 1) (.sqrt (.div (.mul (.mul (.add (.num 1 1) (.var 1)) (.var 2)) (.add (.num 5 1) (.mul (.num 2 1) (.var 2)))) (.add (.add (.num 2 1) (.mul (.num 5 1) (.var 2))) (.mul (.num 2 1) (.pow (.var 2) 2)))))))) (.mul (.var 2) (.add (.add (.mul (.num 29 1) (.sqrt (.div (.mul (.mul (.mul (.add (.num 1 1) (.var 1)) (.var 2)) (.add (.num 1 1) (.mul (.num 2 1) (.var 2)))) (.add (.num 5 1) (.mul (.num 2 1) (.var 2)))) (.add (.num 2 1) (.var 2))))) (.mul (.num 5 1) (.sqrt (.mul (.mul (.mul (.mul (.add (.num 1 1) (.var 1)) (.var 2)) (.add (.num 2 1) (.var 2))) (.add (.num 1 1) (.mul (.num 2 1) (.var 2)))) (.add (.num 5 1) (.mul (.num 2 1) (.var 2))))))) (.mul (.mul (.num 2 1) (.var 2)) (.add (.mul (.num 4 1) (.sqrt (.div (.mul (.mul (.mul (.add (.num 1 1) (.var 1)) (.var 2)) (.add (.num 1 1) (.mul (.num 2 1) (.var 2)))) (.add (.num 5 1) (.mul (.num 2 1) (.var 2)))) (.add (.num 2 1) (.var 2))))) (.sqrt (.mul (.mul (.mul (.mul (.add (.num 1 1) (.var 1)) (.var 2)) (.add (.num 2 1) (.var 2))) (.add (.num 1 1) (.mul (.num 2 1) (.var 2)))) (.add (.num 5 1) (.mul (.num 2 1) (.var 2)))))))))) (.mul (.var 1) (.add (.mul (.mul (.var 2) (.add (.num 5 1) (.mul (.num 2 1) (.var 2)))) (.add (.mul (.num 4 1) (.sqrt (.div (.mul (.mul (.mul (.add (.num 1 1) (.var 1)) (.var 2)) (.add (.num 1 1) (.mul (.num 2 1) (.var 2)))) (.add (.num 5 1) (.mul (.num 2 1) (.var 2)))) (.add (.num 2 1) (.var 2))))) (.sqrt (.mul (.mul (.mul (.mul (.add (.num 1 1) (.var 1)) (.var 2)) (.add (.num 2 1) (.var 2))) (.add (.num 1 1) (.mul (.num 2 1) (.var 2)))) (.add (.num 5 1) (.mul (.num 2 1) (.var 2))))))) (.mul (.num 3 1) (.add (.add (.add (.mul (.num 18 1) (.sqrt (.div (.mul (.mul (.mul (.add (.num 1 1) (.var 1)) (.var 2)) (.add (.num 1 1) (.mul (.num 2 1) (.var 2)))) (.add (.num 5 1) (.mul (.num 2 1) (.var 2)))) (.add (.num 2 1) (.var 2))))) (.mul (.num 6 1) (.sqrt (.div (.mul (.mul (.mul (.add (.num 1 1) (.var 1)) (.pow (.var 2) 3)) (.add (.num 1 1) (.mul (.num 2 1) (.var 2)))) (.add (.num 5 1) (.mul (.num 2 1) (.var 2)))) (.add (.num 2 1) (.var 2)))))) (.sqrt (.mul (.mul (.mul (.mul (.add (.num 1 1) (.var 1)) (.var 2)) (.add (.num 2 1) (.var 2))) (.add (.num 1 1) (.mul (.num 2 1) (.var 2)))) (.add (.num 5 1) (.mul (.num 2 1) (.var 2)))))) (.mul (.num 10 1) (.sqrt (.div (.mul (.mul (.add (.num 1 1) (.var 1)) (.var 2)) (.add (.num 5 1) (.mul (.num 2 1) (.var 2)))) (.add (.add (.num 2 1) (.mul (.num 5 1) (.var 2))) (.mul (.num 2 1) (.pow (.var 2) 2))))))))))) (.mul (.mul (.mul (.mul (.add (.num 1 1) (.var 1)) (.add (.num 2 1) (.var 2))) (.add (.num 3 1) (.mul (.num 2 1) (.var 2)))) (.add (.num 5 1) (.mul (.num 2 1) (.var 2)))) (.sqrt (.div (.mul (.mul (.mul (.add (.num 1 1) (.var 1)) (.add (.num 1 1) (.var 2))) (.add (.num 3 1) (.var 2))) (.add (.num 5 1) (.mul (.num 2 1) (.var 2)))) (.add (.num 1 1) (.mul (.num 2 1) (.var 2)))))),
  .div (.add (.mul (.mul (.num 3 1) (.add (.num 1 1) (.var 1))) (.sqrt (.mul (.mul (.mul (.mul (.pow (.var 1) 3) (.pow (.add (.num 1 1) (.var 1)) 4)) (.pow (.var 2) 3)) (.pow (.add (.num 1 1) (.var 2)) 4)) (.add (.num 2 1) (.var 2))))) (.mul (.mul (.add (.neg (.num 1 1)) (.var 2)) (.var 2)) (.add (.mul (.pow (.var 1) 2) (.sqrt (.mul (.mul (.mul (.mul (.var 1) (.pow (.add (.num 1 1) (.var 1)) 4)) (.var 2)) (.pow (.add (.num 1 1) (.var 2)) 4)) (.add (.num 2 1) (.var 2))))) (.sqrt (.mul (.mul (.mul (.mul (.pow (.var 1) 3) (.pow (.add (.num 1 1) (.var 1)) 4)) (.var 2)) (.pow (.add (.num 1 1) (.var 2)) 4)) (.add (.num 2 1) (.var 2))))))) (.mul (.mul (.mul (.mul (.hpow (.var 1) 1) (.pow (.add (.num 1 1) (.var 1)) 3)) (.var 2)) (.pow (.add (.num 1 1) (.var 2)) 3)) (.add (.num 2 1) (.var 2))),
  .div (.add (.mul (.mul (.neg (.num 2 1)) (.add (.num 1 1) (.var 1))) (.sqrt (.mul (.mul (.var 1) (.add (.num 1 1) (.var 1))) (.add (.num 2 1) (.var 2))))) (.mul (.var 2) (.add (.sub (.neg (.sqrt (.mul (.mul (.var 1) (.add (.num 1 1) (.var 1))) (.add (.num 2 1) (.var 2))))) (.mul (.mul (.num 4 1) (.var 1)) (.sqrt (.mul (.mul (.var 1) (.add (.num 1 1) (.var 1))) (.add (.num 2 1) (.var 2)))))) (.mul (.num 3 1) (.sqrt (.mul (.mul (.pow (.var 1) 3) (.add (.num 1 1) (.var 1))) (.add (.num 2 1) (.var 2)))))))) (.sqrt (.mul (.mul (.mul (.var 1) (.pow (.add (.num 1 1) (.var 1)) 3)) (.pow (.add (.num 1 1) (.var 2)) 2)) (.pow (.add (.num 2 1) (.var 2)) 3))),
  .mul (.sqrt (.div (.mul (.add (.num 1 1) (.var 2)) (.add (.num 3 1) (.mul (.num 2 1) (.var 2)))) (.mul (.mul (.mul (.add (.num 1 1) (.var 1)) (.add (.num 3 1) (.mul (.num 2 1) (.var 1)))) (.var 2)) (.add (.num 1 1) (.mul (.num 2 1) (.var 2)))))) (.add (.add (.mul (.add (.num 1 1) (.mul (.num 2 1) (.var 1))) (.sqrt (.div (.mul (.mul (.add (.num 1 1) (.var 1)) (.var 2)) (.add (.neg (.num 1 1)) (.mul (.num 2 1) (.var 2)))) (.mul (.add (.num 3 1) (.mul (.num 2 1) (.var 1))) (.add (.add (.num 1 1) (.mul (.num 3 1) (.var 2))) (.mul (.num 2 1) (.pow (.var 2) 2))))))) (.sqrt (.div (.mul (.var 2) (.add (.neg (.num 1 1)) (.mul (.num 2 1) (.var 2)))) (.mul (.add (.add (.num 3 1) (.mul (.num 5 1) (.var 1))) (.mul (.num 2 1) (.pow (.var 1) 2))) (.add (.add (.num 1 1) (.mul (.num 3 1) (.var 2))) (.mul (.num 2 1) (.pow (.var 2) 2))))))) (.mul (.add (.num 1 1) (.mul (.num 2 1) (.var 1))) (.sqrt (.div (.mul (.var 2) (.add (.neg (.num 1 1)) (.mul (.num 2 1) (.var 2)))) (.mul (.add (.add (.num 3 1) (.mul (.num 5 1) (.var 1))) (.mul (.num 2 1) (.pow (.var 1) 2))) (.add (.add (.num 1 1) (.mul (.num 3 1) (.var 2))) (.mul (.num 2 1) (.pow (.var 2) 2)))))))),
  .div (.add (.sub (.add (.mul (.num 3 1) (.sqrt (.div (.mul (.var 2) (.add (.num 3 1) (.mul (.num 2 1) (.var 2)))) (.add (.num 1 1) (.var 2))))) (.mul (.num 3 1) (.sqrt (.div (.mul (.pow (.var 2) 3) (.add (.num 3 1) (.mul (.num 2 1) (.var 2)))) (.add (.num 1 1) (.var 2)))))) (.sqrt (.mul (.mul (.var 2) (.add (.num 1 1) (.var 2))) (.add (.num 3 1) (.mul (.num 2 1) (.var 2)))))) (.sqrt (.mul (.mul (.pow (.var 2) 3) (.add (.num 1 1) (.var 2))) (.add (.num 3 1) (.mul (.num 2 1) (.var 2)))))) (.mul (.hpow (.add (.num 1 1) (.var 2)) 1) (.sqrt (.mul (.add (.num 2 1) (.var 2)) (.add (.num 3 1) (.mul (.num 2 1) (.var 2)))))),
  .neg (.div (.sqrt (.sub (.add (.num 2 1) (.div (.num 6 1) (.var 2))) (.div (.num 4 1) (.add (.num 1 1) (.mul (.num 2 1) (.var 2)))))) (.add (.num 1 1) (.var 2))),
  .div (.mul (.sqrt (.div (.add (.num 3 1) (.mul (.num 2 1) (.var 2))) (.add (.mul (.num 2 1) (.var 2)) (.pow (.var 2) 2)))) (.add (.add (.mul (.num 6 1) (.sqrt (.mul (.mul (.add (.neg (.num 1 1)) (.var 2)) (.add (.num 1 1) (.var 2))) (.add (.neg (.num 1 1)) (.mul (.num 2 1) (.var 2)))))) (.mul (.num 4 1) (.sqrt (.add (.add (.num 3 1) (.div (.num 2 1) (.add (.neg (.num 1 1)) (.var 2)))) (.mul (.num 2 1) (.var 2)))))) (.mul (.mul (.add (.neg (.num 5 1)) (.var 2)) (.var 2)) (.sqrt (.add (.add (.num 3 1) (.div (.num 2 1) (.add (.neg (.num 1 1)) (.var 2)))) (.mul (.num 2 1) (.var 2))))))) (.mul (.add (.num 1 1) (.var 2)) (.add (.num 1 1) (.mul (.num 2 1) (.var 2)))),
  .div (.sqrt (.num 6 1)) (.sqrt (.mul (.mul (.var 2) (.add (.num 1 1) (.var 2))) (.add (.neg (.num 1 1)) (.mul (.num 4 1) (.pow (.var 2) 2))))),
  .neg (.div (.mul (.sqrt (.num 3 1)) (.sqrt (.add (.add (.sub (.neg (.num 1 1)) (.div (.num 2 1) (.var 2))) (.mul (.num 8 1) (.var 2))) (.mul (.num 4 1) (.pow (.var 2) 2))))) (.add (.add (.num 1 1) (.mul (.num 3 1) (.var 2))) (.mul (.num 2 1) (.pow (.var 2) 2)))),
  .div (.mul (.sqrt (.mul (.mul (.add (.num 1 1) (.mul (.num 2 1) (.var 1))) (.add (.num 1 1) (.var 2))) (.add (.num 3 1) (.mul (.num 2 1) (.var 2))))) (.add (.div (.mul (.mul (.mul (.mul (.mul (.mul (.num 2 1) (.var 1)) (.add (.num 2 1) (.var 2))) (.add (.num 1 1) (.mul (.num 2 1) (.var 2)))) (.add (.num 5 1) (.mul (.num 2 1) (.var 2)))) (.sqrt (.div (.mul (.var 2) (.add (.add (.neg (.num 1 1)) (.var 2)) (.mul (.num 2 1) (.pow (.var 2) 2)))) (.mul (.add (.num 1 1) (.mul (.num 2 1) (.var 1))) (.add (.add (.add (.num 10 1) (.mul (.num 29 1) (.var 2))) (.mul (.num 20 1) (.pow (.var 2) 2))) (.mul (.num 4 1) (.pow (.var 2) 3))))))) (.add (.num 1 1) (.mul (.var 2) (.add (.neg (.num 9 1)) (.mul (.num 2 1) (.var 2)))))) (.mul (.add (.num 1 1) (.var 2)) (.add (.num 3 1) (.mul (.num 2 1) (.var 2))))) (.div (.sub (.add (.add (.add (.add (.add (.mul (.mul (.num 9 1) (.sqrt (.mul (.var 2) (.add (.num 1 1) (.var 2))))) (.hpow (.mul (.mul (.mul (.mul (.add (.num 1 1) (.mul (.num 2 1) (.var 1))) (.add (.num 2 1) (.var 2))) (.add (.neg (.num 1 1)) (.mul (.num 2 1) (.var 2)))) (.add (.num 1 1) (.mul (.num 2 1) (.var 2)))) (.add (.num 5 1) (.mul (.num 2 1) (.var 2)))) 1)) (.mul (.mul (.num 121 1) (.hpow (.var 2) 1)) (.sqrt (.mul (.mul (.mul (.mul (.mul (.add (.num 1 1) (.mul (.num 2 1) (.var 1))) (.add (.num 1 1) (.var 2))) (.add (.num 2 1) (.var 2))) (.add (.neg (.num 1 1)) (.mul (.num 2 1) (.var 2)))) (.add (.num 1 1) (.mul (.num 2 1) (.var 2)))) (.add (.num 5 1) (.mul (.num 2 1) (.var 2))))))) (.mul (.mul (.num 136 1) (.hpow (.var 2) 2)) (.sqrt (.mul (.mul (.mul (.mul (.mul (.add (.num 1 1) (.mul (.num 2 1) (.var 1))) (.add (.num 1 1) (.var 2))) (.add (.num 2 1) (.var 2))) (.add (.neg (.num 1 1)) (.mul (.num 2 1) (.var 2)))) (.add (.num 1 1) (.mul (.num 2 1) (.var 2)))) (.add (.num 5 1) (.mul (.num 2 1) (.var 2))))))) (.mul (.mul (.num 88 1) (.hpow (.var 2) 3)) (.sqrt (.mul (.mul (.mul (.mul (.mul (.add (.num 1 1) (.mul (.num 2 1) (.var 1))) (.add (.num 1 1) (.var 2))) (.add (.num 2 1) (.var 2))) (.add (.neg (.num 1 1)) (.mul (.num 2 1) (.var 2)))) (.add (.num 1 1) (.mul (.num 2 1) (.var 2)))) (.add (.num 5 1) (.mul (.num 2 1) (.var 2))))))) (.mul (.mul (.num 64 1) (.hpow (.var 2) 4)) (.sqrt (.mul (.mul (.mul (.mul (.mul (.add (.num 1 1) (.mul (.num 2 1) (.var 1))) (.add (.num 1 1) (.var 2))) (.add (.num 2 1) (.var 2))) (.add (.neg (.num 1 1)) (.mul (.num 2 1) (.var 2)))) (.add (.num 1 1) (.mul (.num 2 1) (.var 2)))) (.add (.num 5 1) (.mul (.num 2 1) (.var 2))))))) (.mul (.mul (.num 16 1) (.hpow (.var 2) 5)) (.sqrt (.mul (.mul (.mul (.mul (.mul (.add (.num 1 1) (.mul (.num 2 1) (.var 1))) (.add (.num 1 1) (.var 2))) (.add (.num 2 1) (.var 2))) (.add (.neg (.num 1 1)) (.mul (.num 2 1) (.var 2)))) (.add (.num 1 1) (.mul (.num 2 1) (.var 2)))) (.add (.num 5 1) (.mul (.num 2 1) (.var 2))))))) (.mul (.num 110 1) (.sqrt (.mul (.mul (.mul (.mul (.mul (.mul (.add (.num 1 1) (.mul (.num 2 1) (.var 1))) (.var 2)) (.add (.num 1 1) (.var 2))) (.add (.num 2 1) (.var 2))) (.add (.neg (.num 1 1)) (.mul (.num 2 1) (.var 2)))) (.add (.num 1 1) (.mul (.num 2 1) (.var 2)))) (.add (.num 5 1) (.mul (.num 2 1) (.var 2))))))) (.mul (.mul (.mul (.mul (.mul (.add (.num 1 1) (.mul (.num 2 1) (.var 1))) (.add (.num 1 1) (.var 2))) (.add (.num 2 1) (.var 2))) (.add (.neg (.num 1 1)) (.mul (.num 2 1) (.var 2)))) (.add (.num 3 1) (.mul (.num 2 1) (.var 2)))) (.add (.num 5 1) (.mul (.num 2 1) (.var 2))))))) (.mul (.mul (.mul (.mul (.mul (.num 2 1) (.add (.num 1 1) (.var 1))) (.add (.num 1 1) (.var 2))) (.add (.num 2 1) (.var 2))) (.add (.num 1 1) (.mul (.num 2 1) (.var 2)))) (.add (.num 5 1) (.mul (.num 2 1) (.var 2)))),
  .neg (.div (.mul (.sqrt (.num 3 1)) (.add (.add (.mul (.num 10 1) (.sqrt (.mul (.mul (.mul (.mul (.mul (.var 2) (.add (.num 1 1) (.var 2))) (.add (.num 2 1) (.var 2))) (.add (.num 1 1) (.mul (.num 2 1) (.var 2)))) (.add (.num 3 1) (.mul (.num 2 1) (.var 2)))) (.add (.num 5 1) (.mul (.num 2 1) (.var 2)))))) (.mul (.num 9 1) (.sqrt (.mul (.mul (.mul (.mul (.mul (.pow (.var 2) 3) (.add (.num 1 1) (.var 2))) (.add (.num 2 1) (.var 2))) (.add (.num 1 1) (.mul (.num 2 1) (.var 2)))) (.add (.num 3 1) (.mul (.num 2 1) (.var 2)))) (.add (.num 5 1) (.mul (.num 2 1) (.var 2))))))) (.mul (.num 2 1) (.sqrt (.mul (.mul (.mul (.mul (.mul (.pow (.var 2) 5) (.add (.num 1 1) (.var 2))) (.add (.num 2 1) (.var 2))) (.add (.num 1 1) (.mul (.num 2 1) (.var 2)))) (.add (.num 3 1) (.mul (.num 2 1) (.var 2)))) (.add (.num 5 1) (.mul (.num 2 1) (.var 2)))))))) (.mul (.mul (.mul (.mul (.hpow (.add (.num 1 1) (.var 2)) 1) (.pow (.add (.num 2 1) (.var 2)) 2)) (.add (.num 1 1) (.mul (.num 2 1) (.var 2)))) (.sqrt (.add (.num 3 1) (.mul (.num 2 1) (.var 2))))) (.add (.num 5 1) (.mul (.num 2 1) (.var 2))))),
  .div (.add (.add (.add (.add (.add (.add (.add (.mul (.num 600 1) (.sqrt (.mul (.mul (.var 2) (.add (.num 3 1) (.var 2))) (.add (.num 3 1) (.mul (.num 2 1) (.var 2)))))) (.mul (.num 2180 1) (.sqrt (.mul (.mul (.pow (.var 2) 3) (.add (.num 3 1) (.var 2))) (.add (.num 3 1) (.mul (.num 2 1) (.var 2))))))) (.mul (.num 3306 1) (.sqrt (.mul (.mul (.pow (.var 2) 5) (.add (.num 3 1) (.var 2))) (.add (.num 3 1) (.mul (.num 2 1) (.var 2))))))) (.mul (.num 2727 1) (.sqrt (.mul (.mul (.pow (.var 2) 7) (.add (.num 3 1) (.var 2))) (.add (.num 3 1) (.mul (.num 2 1) (.var 2))))))) (.mul (.num 1326 1) (.sqrt (.mul (.mul (.pow (.var 2) 9) (.add (.num 3 1) (.var 2))) (.add (.num 3 1) (.mul (.num 2 1) (.var 2))))))) (.mul (.num 381 1) (.sqrt (.mul (.mul (.pow (.var 2) 11) (.add (.num 3 1) (.var 2))) (.add (.num 3 1) (.mul (.num 2 1) (.var 2))))))) (.mul (.num 60 1) (.sqrt (.mul (.mul (.pow (.var 2) 13) (.add (.num 3 1) (.var 2))) (.add (.num 3 1) (.mul (.num 2 1) (.var 2))))))) (.mul (.num 4 1) (.sqrt (.mul (.mul (.pow (.var 2) 15) (.add (.num 3 1) (.var 2))) (.add (.num 3 1) (.mul (.num 2 1) (.var 2))))))) (.mul (.mul (.mul (.mul (.hpow (.add (.num 1 1) (.var 2)) 1) (.hpow (.add (.num 2 1) (.var 2)) 3)) (.add (.num 3 1) (.var 2))) (.sqrt (.add (.num 3 1) (.mul (.num 2 1) (.var 2))))) (.pow (.add (.num 5 1) (.mul (.num 2 1) (.var 2))) 2)),
  .div (.mul (.add (.neg (.num 1 1)) (.var 2)) (.add (.add (.neg (.sqrt (.mul (.mul (.add (.num 1 1) (.var 1)) (.var 2)) (.add (.num 1 1) (.var 2))))) (.sqrt (.mul (.mul (.add (.num 1 1) (.var 1)) (.pow (.var 2) 5)) (.add (.num 1 1) (.var 2))))) (.mul (.mul (.var 1) (.sqrt (.mul (.mul (.add (.num 1 1) (.var 1)) (.var 2)) (.add (.num 1 1) (.var 2))))) (.add (.neg (.num 1 1)) (.pow (.var 2) 2))))) (.mul (.hpow (.mul (.mul (.add (.num 1 1) (.var 1)) (.add (.neg (.num 1 1)) (.var 2))) (.var 2)) 1) (.add (.num 1 1) (.var 2))),
  .div (.add (.add (.add (.mul (.mul (.mul (.mul (.hpow (.var 1) 1) (.pow (.add (.num 1 1) (.var 1)) 2)) (.hpow (.var 2) 2)) (.pow (.add (.num 1 1) (.var 2)) 2)) (.sqrt (.add (.neg (.num 1 1)) (.mul (.num 4 1) (.pow (.var 2) 2))))) (.sqrt (.mul (.mul (.mul (.mul (.var 1) (.pow (.add (.num 1 1) (.var 1)) 4)) (.pow (.var 2) 3)) (.pow (.add (.num 1 1) (.var 2)) 4)) (.add (.neg (.num 1 1)) (.mul (.num 4 1) (.pow (.var 2) 2)))))) (.mul (.var 1) (.sqrt (.mul (.mul (.mul (.mul (.var 1) (.pow (.add (.num 1 1) (.var 1)) 4)) (.pow (.var 2) 3)) (.pow (.add (.num 1 1) (.var 2)) 4)) (.add (.neg (.num 1 1)) (.mul (.num 4 1) (.pow (.var 2) 2))))))) (.mul (.var 2) (.sqrt (.mul (.mul (.mul (.mul (.var 1) (.pow (.add (.num 1 1) (.var 1)) 4)) (.pow (.var 2) 3)) (.pow (.add (.num 1 1) (.var 2)) 4)) (.add (.neg (.num 1 1)) (.mul (.num 4 1) (.pow (.var 2) 2))))))) (.mul (.mul (.mul (.mul (.sqrt (.var 1)) (.pow (.add (.num 1 1) (.var 1)) 3)) (.hpow (.var 2) 2)) (.pow (.add (.num 1 1) (.var 2)) 3)) (.add (.num 1 1) (.mul (.num 2 1) (.var 2)))),
  .div (.mul (.sqrt (.div (.var 1) (.add (.add (.num 3 1) (.mul (.num 5 1) (.var 2))) (.mul (.num 2 1) (.pow (.var 2) 2))))) (.add (.add (.add (.add (.add (.sqrt (.div (.mul (.add (.num 1 1) (.var 1)) (.add (.neg (.num 1 1)) (.mul (.num 2 1) (.var 2)))) (.mul (.var 1) (.add (.num 1 1) (.var 2))))) (.sqrt (.div (.mul (.mul (.var 1) (.add (.num 1 1) (.var 1))) (.add (.neg (.num 1 1)) (.mul (.num 2 1) (.var 2)))) (.add (.num 1 1) (.var 2))))) (.mul (.sqrt (.div (.mul (.add (.num 1 1) (.var 1)) (.add (.neg (.num 1 1)) (.mul (.num 2 1) (.var 2)))) (.mul (.var 1) (.add (.num 1 1) (.var 2))))) (.add (.num 1 1) (.mul (.num 2 1) (.var 2))))) (.mul (.mul (.var 1) (.sqrt (.div (.mul (.add (.num 1 1) (.var 1)) (.add (.neg (.num 1 1)) (.mul (.num 2 1) (.var 2)))) (.mul (.var 1) (.add (.num 1 1) (.var 2)))))) (.add (.num 1 1) (.mul (.num 2 1) (.var 2))))) (.mul (.add (.num 1 1) (.mul (.num 2 1) (.var 2))) (.sqrt (.div (.mul (.add (.num 1 1) (.var 1)) (.add (.add (.neg (.num 1 1)) (.var 2)) (.mul (.num 2 1) (.pow (.var 2) 2)))) (.var 1))))) (.mul (.add (.num 1 1) (.mul (.num 2 1) (.var 2))) (.sqrt (.mul (.mul (.var 1) (.add (.num 1 1) (.var 1))) (.add (.add (.neg (.num 1 1)) (.var 2)) (.mul (.num 2 1) (.pow (.var 2) 2)))))))) (.mul (.hpow (.add (.num 1 1) (.var 1)) 1) (.add (.num 1 1) (.mul (.num 2 1) (.var 2)))),
  .div (.mul (.sqrt (.add (.num 1 1) (.mul (.num 2 1) (.var 1)))) (.add (.add (.add (.add (.add (.sqrt (.div (.mul (.mul (.mul (.mul (.mul (.add (.num 1 1) (.var 1)) (.add (.num 3 1) (.mul (.num 2 1) (.var 1)))) (.var 2)) (.add (.num 1 1) (.var 2))) (.add (.neg (.num 1 1)) (.mul (.num 2 1) (.var 2)))) (.add (.num 1 1) (.mul (.num 2 1) (.var 2)))) (.add (.num 1 1) (.mul (.num 2 1) (.var 1))))) (.sqrt (.mul (.mul (.mul (.mul (.mul (.mul (.add (.num 1 1) (.var 1)) (.add (.num 1 1) (.mul (.num 2 1) (.var 1)))) (.add (.num 3 1) (.mul (.num 2 1) (.var 1)))) (.var 2)) (.add (.num 1 1) (.var 2))) (.add (.neg (.num 1 1)) (.mul (.num 2 1) (.var 2)))) (.add (.num 1 1) (.mul (.num 2 1) (.var 2)))))) (.sqrt (.mul (.mul (.mul (.mul (.mul (.pow (.add (.num 1 1) (.var 1)) 3) (.add (.num 3 1) (.mul (.mul (.num 4 1) (.var 1)) (.add (.num 2 1) (.var 1))))) (.var 2)) (.add (.num 1 1) (.var 2))) (.add (.neg (.num 1 1)) (.mul (.num 2 1) (.var 2)))) (.add (.num 1 1) (.mul (.num 2 1) (.var 2)))))) (.mul (.var 2) (.sqrt (.mul (.mul (.mul (.mul (.mul (.pow (.add (.num 1 1) (.var 1)) 3) (.add (.num 3 1) (.mul (.mul (.num 4 1) (.var 1)) (.add (.num 2 1) (.var 1))))) (.var 2)) (.add (.num 1 1) (.var 2))) (.add (.neg (.num 1 1)) (.mul (.num 2 1) (.var 2)))) (.add (.num 1 1) (.mul (.num 2 1) (.var 2))))))) (.sqrt (.div (.mul (.mul (.mul (.mul (.mul (.add (.num 1 1) (.var 1)) (.add (.num 3 1) (.mul (.num 2 1) (.var 1)))) (.pow (.var 2) 3)) (.add (.num 1 1) (.var 2))) (.add (.neg (.num 1 1)) (.mul (.num 2 1) (.var 2)))) (.add (.num 1 1) (.mul (.num 2 1) (.var 2)))) (.add (.num 1 1) (.mul (.num 2 1) (.var 1)))))) (.sqrt (.mul (.mul (.mul (.mul (.mul (.mul (.add (.num 1 1) (.var 1)) (.add (.num 1 1) (.mul (.num 2 1) (.var 1)))) (.add (.num 3 1) (.mul (.num 2 1) (.var 1)))) (.pow (.var 2) 3)) (.add (.num 1 1) (.var 2))) (.add (.neg (.num 1 1)) (.mul (.num 2 1) (.var 2)))) (.add (.num 1 1) (.mul (.num 2 1) (.var 2))))))) (.mul (.hpow (.mul (.mul (.mul (.add (.num 1 1) (.var 1)) (.add (.num 3 1) (.mul (.num 2 1) (.var 1)))) (.var 2)) (.add (.num 1 1) (.var 2))) 1) (.add (.num 1 1) (.mul (.num 2 1) (.var 2)))),
  .div (.add (.add (.add (.add (.sqrt (.mul (.mul (.mul (.var 2) (.add (.num 2 1) (.var 2))) (.add (.neg (.num 1 1)) (.mul (.num 2 1) (.var 2)))) (.add (.num 3 1) (.mul (.num 2 1) (.var 2))))) (.mul (.num 2 1) (.sqrt (.mul (.mul (.mul (.pow (.var 2) 3) (.add (.num 2 1) (.var 2))) (.add (.neg (.num 1 1)) (.mul (.num 2 1) (.var 2)))) (.add (.num 3 1) (.mul (.num 2 1) (.var 2))))))) (.mul (.num 18 1) (.sqrt (.div (.mul (.var 2) (.add (.neg (.num 1 1)) (.mul (.num 2 1) (.var 2)))) (.add (.add (.num 6 1) (.mul (.num 7 1) (.var 2))) (.mul (.num 2 1) (.pow (.var 2) 2))))))) (.mul (.num 2 1) (.sqrt (.div (.mul (.var 2) (.add (.neg (.num 3 1)) (.mul (.mul (.num 4 1) (.var 2)) (.add (.num 1 1) (.var 2))))) (.add (.num 2 1) (.var 2)))))) (.mul (.mul (.num 4 1) (.var 2)) (.add (.mul (.num 3 1) (.sqrt (.div (.mul (.var 2) (.add (.neg (.num 1 1)) (.mul (.num 2 1) (.var 2)))) (.add (.add (.num 6 1) (.mul (.num 7 1) (.var 2))) (.mul (.num 2 1) (.pow (.var 2) 2)))))) (.sqrt (.div (.mul (.var 2) (.add (.neg (.num 3 1)) (.mul (.mul (.num 4 1) (.var 2)) (.add (.num 1 1) (.var 2))))) (.add (.num 2 1) (.var 2))))))) (.mul (.add (.num 3 1) (.mul (.num 2 1) (.var 2))) (.sqrt (.mul (.mul (.mul (.var 2) (.add (.num 2 1) (.var 2))) (.add (.num 1 1) (.mul (.num 2 1) (.var 2)))) (.add (.num 5 1) (.mul (.num 2 1) (.var 2)))))),
  .div (.mul (.add (.neg (.num 2 1)) (.var 2)) (.add (.num 1 1) (.var 2))) (.sqrt (.mul (.mul (.mul (.add (.neg (.num 2 1)) (.var 2)) (.add (.neg (.num 1 1)) (.var 2))) (.var 2)) (.add (.num 1 1) (.var 2)))),
  .div (.mul (.mul (.sqrt (.num 3 1)) (.add (.num 1 1) (.var 2))) (.add (.neg (.num 3 1)) (.mul (.num 2 1) (.var 2)))) (.mul (.var 2) (.sqrt (.mul (.mul (.mul (.add (.neg (.num 1 1)) (.var 2)) (.add (.num 1 1) (.var 2))) (.add (.neg (.num 3 1)) (.mul (.num 2 1) (.var 2)))) (.add (.num 1 1) (.mul (.num 2 1) (.var 2)))))),
  .div (.mul (.sqrt (.num 3 1)) (.add (.add (.neg (.num 3 1)) (.var 2)) (.mul (.num 2 1) (.pow (.var 2) 2)))) (.mul (.var 2) (.sqrt (.mul (.add (.neg (.num 1 1)) (.pow (.var 2) 2)) (.add (.num 3 1) (.mul (.mul (.num 4 1) (.var 2)) (.add (.num 2 1) (.var 2))))))),
  .div (.add (.mul (.num 6 1) (.sqrt (.mul (.mul (.add (.neg (.num 1 1)) (.var 2)) (.add (.num 1 1) (.var 2))) (.add (.neg (.num 1 1)) (.mul (.num 2 1) (.var 2)))))) (.mul (.mul (.mul (.add (.neg (.num 1 1)) (.var 2)) (.var 2)) (.sqrt (.add (.add (.num 3 1) (.div (.num 2 1) (.add (.neg (.num 1 1)) (.var 2)))) (.mul (.num 2 1) (.var 2))))) (.add (.num 13 1) (.mul (.var 2) (.add (.num 9 1) (.mul (.num 2 1) (.var 2))))))) (.mul (.mul (.pow (.add (.num 1 1) (.var 2)) 2) (.add (.num 1 1) (.mul (.num 2 1) (.var 2)))) (.sqrt (.mul (.mul (.var 2) (.add (.num 2 1) (.var 2))) (.add (.num 3 1) (.mul (.num 2 1) (.var 2)))))),
  .div (.mul (.sqrt (.num 2 1)) (.add (.neg (.num 1 1)) (.mul (.num 2 1) (.var 2)))) (.sqrt (.mul (.mul (.mul (.var 2) (.add (.num 1 1) (.var 2))) (.add (.neg (.num 1 1)) (.mul (.num 2 1) (.var 2)))) (.add (.num 1 1) (.mul (.num 2 1) (.var 2))))),
  .div (.add (.add (.add (.add (.mul (.num 12 1) (.sqrt (.div (.mul (.mul (.mul (.mul (.add (.num 1 1) (.var 1)) (.var 2)) (.add (.neg (.num 1 1)) (.mul (.num 2 1) (.var 2)))) (.add (.num 1 1) (.mul (.num 2 1) (.var 2)))) (.add (.num 5 1) (.mul (.num 2 1) (.var 2)))) (.mul (.add (.num 2 1) (.var 2)) (.add (.num 3 1) (.mul (.num 2 1) (.var 2))))))) (.mul (.num 2 1) (.sqrt (.div (.mul (.mul (.mul (.mul (.mul (.add (.num 1 1) (.var 1)) (.var 2)) (.add (.neg (.num 1 1)) (.mul (.num 2 1) (.var 2)))) (.add (.num 1 1) (.mul (.num 2 1) (.var 2)))) (.add (.num 3 1) (.mul (.num 2 1) (.var 2)))) (.add (.num 5 1) (.mul (.num 2 1) (.var 2)))) (.add (.num 2 1) (.var 2)))))) (.sqrt (.mul (.mul (.mul (.mul (.mul (.mul (.add (.num 1 1) (.var 1)) (.var 2)) (.add (.num 2 1) (.var 2))) (.add (.neg (.num 1 1)) (.mul (.num 2 1) (.var 2)))) (.add (.num 1 1) (.mul (.num 2 1) (.var 2)))) (.add (.num 3 1) (.mul (.num 2 1) (.var 2)))) (.add (.num 5 1) (.mul (.num 2 1) (.var 2)))))) (.mul (.num 6 1) (.sqrt (.div (.mul (.mul (.add (.num 1 1) (.var 1)) (.var 2)) (.add (.add (.neg (.num 5 1)) (.mul (.num 8 1) (.var 2))) (.mul (.num 4 1) (.pow (.var 2) 2)))) (.add (.add (.add (.num 6 1) (.mul (.num 19 1) (.var 2))) (.mul (.num 16 1) (.pow (.var 2) 2))) (.mul (.num 4 1) (.pow (.var 2) 3))))))) (.mul (.var 2) (.add (.add (.mul (.num 6 1) (.sqrt (.div (.mul (.mul (.mul (.mul (.add (.num 1 1) (.var 1)) (.var 2)) (.add (.neg (.num 1 1)) (.mul (.num 2 1) (.var 2)))) (.add (.num 1 1) (.mul (.num 2 1) (.var 2)))) (.add (.num 5 1) (.mul (.num 2 1) (.var 2)))) (.mul (.add (.num 2 1) (.var 2)) (.add (.num 3 1) (.mul (.num 2 1) (.var 2))))))) (.mul (.num 2 1) (.sqrt (.div (.mul (.mul (.mul (.mul (.mul (.add (.num 1 1) (.var 1)) (.var 2)) (.add (.neg (.num 1 1)) (.mul (.num 2 1) (.var 2)))) (.add (.num 1 1) (.mul (.num 2 1) (.var 2)))) (.add (.num 3 1) (.mul (.num 2 1) (.var 2)))) (.add (.num 5 1) (.mul (.num 2 1) (.var 2)))) (.add (.num 2 1) (.var 2)))))) (.sqrt (.mul (.mul (.mul (.mul (.mul (.mul (.add (.num 1 1) (.var 1)) (.var 2)) (.add (.num 2 1) (.var 2))) (.add (.neg (.num 1 1)) (.mul (.num 2 1) (.var 2)))) (.add (.num 1 1) (.mul (.num 2 1) (.var 2)))) (.add (.num 3 1) (.mul (.num 2 1) (.var 2)))) (.add (.num 5 1) (.mul (.num 2 1) (.var 2)))))))) (.mul (.mul (.mul (.add (.num 1 1) (.var 2)) (.sqrt (.mul (.mul (.add (.num 1 1) (.var 1)) (.var 2)) (.add (.num 2 1) (.var 2))))) (.add (.num 3 1) (.mul (.num 2 1) (.var 2)))) (.add (.num 5 1) (.mul (.num 2 1) (.var 2))))]

end Verif.Coef
