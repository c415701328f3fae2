import Verif.Coef.Model
/-!
# The factors in the operator recalculation tables, class SPSU2T

Generated by `scripts/gen_factors.py` from `c++/symmetry/coefnew/*/*.dat`.  The position of
an expression is the number `k` of `Verif.Oper.OpRow`.  `var i` is the quantum number at
position `i` of the label.  Decimal numbers are read as the fraction with a denominator up to
100 they stand for (`1.6666666666666667` as 5/3).
-/

namespace Verif.Coef

set_option maxRecDepth 20000 in
/-- The factors of class `SPSU2T`. -/
def factors_SPSU2T : List Ex := [
  .num 1 1,
  .div (.sqrt (.num 2 1)) (.sqrt (.mul (.add (.neg (.num 1 1)) (.var 1)) (.var 1))),
  .div (.sqrt (.num 6 1)) (.sqrt (.mul (.mul (.var 1) (.add (.num 1 1) (.mul (.num 2 1) (.var 1)))) (.add (.sub (.num 1 1) (.mul (.num 3 1) (.var 1))) (.mul (.num 2 1) (.pow (.var 1) 2))))),
  .div (.num 1 1) (.sqrt (.div (.mul (.add (.neg (.num 1 1)) (.var 1)) (.var 1)) (.add (.sub (.neg (.num 2 1)) (.var 1)) (.pow (.var 1) 2)))),
  .div (.mul (.add (.neg (.num 3 1)) (.mul (.num 2 1) (.var 1))) (.sqrt (.div (.add (.add (.num 3 1) (.mul (.num 9 1) (.var 1))) (.mul (.num 6 1) (.pow (.var 1) 2))) (.add (.sub (.num 3 1) (.mul (.num 5 1) (.var 1))) (.mul (.num 2 1) (.pow (.var 1) 2)))))) (.mul (.var 1) (.add (.num 1 1) (.mul (.num 2 1) (.var 1)))),
  .div (.num 3 1) (.add (.var 1) (.mul (.num 2 1) (.pow (.var 1) 2))),
  .div (.mul (.sqrt (.div (.add (.neg (.num 1 1)) (.var 1)) (.add (.add (.add (.num 3 1) (.mul (.num 11 1) (.var 1))) (.mul (.num 12 1) (.pow (.var 1) 2))) (.mul (.num 4 1) (.pow (.var 1) 3))))) (.add (.add (.mul (.num 6 1) (.sqrt (.div (.sub (.num 3 1) (.mul (.num 2 1) (.var 1))) (.sub (.num 1 1) (.mul (.num 2 1) (.var 1)))))) (.mul (.num 3 1) (.sqrt (.add (.sub (.num 3 1) (.mul (.num 8 1) (.var 1))) (.mul (.num 4 1) (.pow (.var 1) 2)))))) (.mul (.var 1) (.sqrt (.add (.sub (.num 3 1) (.mul (.num 8 1) (.var 1))) (.mul (.num 4 1) (.pow (.var 1) 2))))))) (.var 1),
  .div (.mul (.sqrt (.num 3 1)) (.sqrt (.div (.add (.add (.neg (.num 3 1)) (.var 1)) (.mul (.num 2 1) (.pow (.var 1) 2))) (.add (.add (.num 1 1) (.mul (.num 3 1) (.var 1))) (.mul (.num 2 1) (.pow (.var 1) 2)))))) (.var 1),
  .div (.sqrt (.num 6 1)) (.sqrt (.mul (.mul (.var 1) (.add (.num 1 1) (.mul (.num 2 1) (.var 1)))) (.add (.add (.num 3 1) (.mul (.num 5 1) (.var 1))) (.mul (.num 2 1) (.pow (.var 1) 2))))),
  .div (.mul (.sqrt (.div (.add (.neg (.num 1 1)) (.var 1)) (.var 1))) (.add (.add (.add (.add (.mul (.mul (.mul (.var 1) (.hpow (.add (.num 1 1) (.var 1)) 1)) (.add (.num 1 1) (.mul (.num 2 1) (.var 1)))) (.sqrt (.add (.add (.add (.neg (.num 6 1)) (.mul (.num 5 1) (.var 1))) (.mul (.num 12 1) (.pow (.var 1) 2))) (.mul (.num 4 1) (.pow (.var 1) 3))))) (.mul (.mul (.num 9 1) (.pow (.var 1) 2)) (.sqrt (.div (.add (.add (.add (.neg (.num 6 1)) (.mul (.num 5 1) (.var 1))) (.mul (.num 12 1) (.pow (.var 1) 2))) (.mul (.num 4 1) (.pow (.var 1) 3))) (.add (.num 1 1) (.var 1)))))) (.mul (.mul (.num 6 1) (.pow (.var 1) 3)) (.sqrt (.div (.add (.add (.add (.neg (.num 6 1)) (.mul (.num 5 1) (.var 1))) (.mul (.num 12 1) (.pow (.var 1) 2))) (.mul (.num 4 1) (.pow (.var 1) 3))) (.add (.num 1 1) (.var 1)))))) (.mul (.num 6 1) (.sqrt (.add (.add (.add (.sub (.neg (.num 6 1)) (.var 1)) (.mul (.num 17 1) (.pow (.var 1) 2))) (.mul (.num 16 1) (.pow (.var 1) 3))) (.mul (.num 4 1) (.pow (.var 1) 4)))))) (.mul (.mul (.num 3 1) (.var 1)) (.add (.sqrt (.div (.add (.add (.add (.neg (.num 6 1)) (.mul (.num 5 1) (.var 1))) (.mul (.num 12 1) (.pow (.var 1) 2))) (.mul (.num 4 1) (.pow (.var 1) 3))) (.add (.num 1 1) (.var 1)))) (.mul (.num 3 1) (.sqrt (.add (.add (.add (.sub (.neg (.num 6 1)) (.var 1)) (.mul (.num 17 1) (.pow (.var 1) 2))) (.mul (.num 16 1) (.pow (.var 1) 3))) (.mul (.num 4 1) (.pow (.var 1) 4))))))))) (.mul (.pow (.add (.num 1 1) (.var 1)) 2) (.add (.add (.add (.num 6 1) (.mul (.num 19 1) (.var 1))) (.mul (.num 16 1) (.pow (.var 1) 2))) (.mul (.num 4 1) (.pow (.var 1) 3)))),
  .div (.mul (.sqrt (.num 2 1)) (.add (.add (.mul (.num 6 1) (.sqrt (.mul (.var 1) (.add (.add (.neg (.num 3 1)) (.mul (.num 4 1) (.var 1))) (.mul (.num 4 1) (.pow (.var 1) 2)))))) (.mul (.num 7 1) (.sqrt (.mul (.pow (.var 1) 3) (.add (.add (.neg (.num 3 1)) (.mul (.num 4 1) (.var 1))) (.mul (.num 4 1) (.pow (.var 1) 2))))))) (.mul (.num 2 1) (.sqrt (.mul (.pow (.var 1) 5) (.add (.add (.neg (.num 3 1)) (.mul (.num 4 1) (.var 1))) (.mul (.num 4 1) (.pow (.var 1) 2)))))))) (.mul (.mul (.mul (.var 1) (.add (.num 2 1) (.var 1))) (.add (.num 3 1) (.mul (.num 2 1) (.var 1)))) (.sqrt (.mul (.add (.num 1 1) (.mul (.num 2 1) (.var 1))) (.add (.add (.num 3 1) (.mul (.num 5 1) (.var 1))) (.mul (.num 2 1) (.pow (.var 1) 2)))))),
  .div (.add (.add (.add (.mul (.num 18 1) (.sqrt (.div (.mul (.var 1) (.add (.neg (.num 1 1)) (.mul (.num 2 1) (.var 1)))) (.add (.add (.num 6 1) (.mul (.num 7 1) (.var 1))) (.mul (.num 2 1) (.pow (.var 1) 2)))))) (.mul (.num 2 1) (.sqrt (.div (.mul (.var 1) (.add (.add (.neg (.num 3 1)) (.mul (.num 4 1) (.var 1))) (.mul (.num 4 1) (.pow (.var 1) 2)))) (.add (.num 2 1) (.var 1)))))) (.sqrt (.mul (.var 1) (.add (.add (.add (.neg (.num 6 1)) (.mul (.num 5 1) (.var 1))) (.mul (.num 12 1) (.pow (.var 1) 2))) (.mul (.num 4 1) (.pow (.var 1) 3)))))) (.mul (.mul (.num 2 1) (.var 1)) (.add (.add (.mul (.num 6 1) (.sqrt (.div (.mul (.var 1) (.add (.neg (.num 1 1)) (.mul (.num 2 1) (.var 1)))) (.add (.add (.num 6 1) (.mul (.num 7 1) (.var 1))) (.mul (.num 2 1) (.pow (.var 1) 2)))))) (.mul (.num 2 1) (.sqrt (.div (.mul (.var 1) (.add (.add (.neg (.num 3 1)) (.mul (.num 4 1) (.var 1))) (.mul (.num 4 1) (.pow (.var 1) 2)))) (.add (.num 2 1) (.var 1)))))) (.sqrt (.mul (.var 1) (.add (.add (.add (.neg (.num 6 1)) (.mul (.num 5 1) (.var 1))) (.mul (.num 12 1) (.pow (.var 1) 2))) (.mul (.num 4 1) (.pow (.var 1) 3)))))))) (.mul (.add (.num 3 1) (.mul (.num 2 1) (.var 1))) (.sqrt (.mul (.var 1) (.add (.add (.add (.num 10 1) (.mul (.num 29 1) (.var 1))) (.mul (.num 20 1) (.pow (.var 1) 2))) (.mul (.num 4 1) (.pow (.var 1) 3)))))),
  .div (.mul (.neg (.num 2 1)) (.sqrt (.mul (.var 0) (.add (.num 1 1) (.var 0))))) (.add (.num 1 1) (.mul (.num 2 1) (.var 0))),
  .div (.mul (.neg (.num 2 1)) (.sqrt (.mul (.var 0) (.add (.num 1 1) (.var 0))))) (.add (.var 1) (.mul (.mul (.num 2 1) (.var 0)) (.var 1))),
  .div (.mul (.neg (.num 2 1)) (.sqrt (.mul (.var 0) (.add (.num 1 1) (.var 0))))) (.mul (.add (.num 1 1) (.mul (.num 2 1) (.var 0))) (.add (.var 1) (.mul (.num 2 1) (.pow (.var 1) 2)))),
  .div (.mul (.neg (.num 2 1)) (.add (.add (.neg (.sqrt (.div (.var 0) (.mul (.add (.num 1 1) (.mul (.num 2 1) (.var 0))) (.add (.neg (.num 1 1)) (.var 1)))))) (.sqrt (.div (.mul (.var 0) (.add (.neg (.num 1 1)) (.var 1))) (.mul (.add (.num 1 1) (.mul (.num 2 1) (.var 0))) (.pow (.var 1) 2))))) (.mul (.sqrt (.div (.var 0) (.mul (.add (.num 1 1) (.mul (.num 2 1) (.var 0))) (.add (.neg (.num 1 1)) (.var 1))))) (.var 1)))) (.sqrt (.div (.mul (.add (.num 1 1) (.mul (.num 2 1) (.var 0))) (.add (.num 1 1) (.var 1))) (.add (.num 1 1) (.var 0)))),
  .div (.mul (.neg (.num 2 1)) (.sqrt (.mul (.mul (.var 0) (.add (.num 1 1) (.var 0))) (.add (.neg (.num 1 1)) (.mul (.num 4 1) (.pow (.var 1) 2)))))) (.mul (.add (.num 1 1) (.mul (.num 2 1) (.var 0))) (.add (.var 1) (.mul (.num 2 1) (.pow (.var 1) 2)))),
  .div (.mul (.neg (.num 2 1)) (.add (.add (.sqrt (.div (.mul (.var 0) (.add (.neg (.num 1 1)) (.mul (.num 2 1) (.var 1)))) (.mul (.add (.num 1 1) (.mul (.num 2 1) (.var 0))) (.add (.num 1 1) (.var 1))))) (.sqrt (.div (.mul (.var 0) (.add (.neg (.num 1 1)) (.mul (.num 2 1) (.var 1)))) (.mul (.mul (.add (.num 1 1) (.mul (.num 2 1) (.var 0))) (.add (.num 1 1) (.var 1))) (.pow (.add (.num 1 1) (.mul (.num 2 1) (.var 1))) 2))))) (.sqrt (.div (.mul (.var 0) (.add (.add (.neg (.num 1 1)) (.var 1)) (.mul (.num 2 1) (.pow (.var 1) 2)))) (.add (.num 1 1) (.mul (.num 2 1) (.var 0))))))) (.sqrt (.div (.mul (.add (.num 1 1) (.mul (.num 2 1) (.var 0))) (.add (.add (.num 3 1) (.mul (.num 5 1) (.var 1))) (.mul (.num 2 1) (.pow (.var 1) 2)))) (.add (.num 1 1) (.var 0)))),
  .div (.num 1 1) (.add (.num 1 1) (.mul (.num 2 1) (.var 0))),
  .div (.num 1 1) (.add (.var 1) (.mul (.mul (.num 2 1) (.var 0)) (.var 1))),
  .div (.num 1 1) (.mul (.add (.num 1 1) (.mul (.num 2 1) (.var 0))) (.add (.var 1) (.mul (.num 2 1) (.pow (.var 1) 2)))),
  .neg (.num 1 1),
  .neg (.div (.num 1 1) (.var 1)),
  .neg (.div (.num 1 1) (.add (.var 1) (.mul (.num 2 1) (.pow (.var 1) 2)))),
  .div (.sqrt (.add (.neg (.num 1 1)) (.pow (.var 1) 2))) (.add (.var 1) (.mul (.mul (.num 2 1) (.var 0)) (.var 1))),
  .div (.sqrt (.div (.add (.neg (.num 1 1)) (.mul (.num 2 1) (.var 1))) (.add (.num 1 1) (.mul (.num 2 1) (.var 1))))) (.add (.var 1) (.mul (.mul (.num 2 1) (.var 0)) (.var 1))),
  .neg (.div (.sqrt (.add (.neg (.num 1 1)) (.pow (.var 1) 2))) (.var 1)),
  .neg (.div (.sqrt (.div (.add (.neg (.num 1 1)) (.mul (.num 2 1) (.var 1))) (.add (.num 1 1) (.mul (.num 2 1) (.var 1))))) (.var 1)),
  .div (.sub (.add (.add (.sub (.add (.mul (.neg (.num 2 1)) (.sqrt (.div (.mul (.mul (.mul (.mul (.pow (.var 0) 2) (.pow (.add (.num 1 1) (.var 0)) 3)) (.var 1)) (.pow (.add (.num 3 1) (.mul (.num 2 1) (.var 1))) 3)) (.add (.add (.neg (.num 1 1)) (.var 1)) (.mul (.num 2 1) (.pow (.var 1) 2)))) (.mul (.pow (.add (.num 1 1) (.mul (.num 2 1) (.var 0))) 2) (.pow (.add (.num 1 1) (.mul (.num 2 1) (.var 1))) 3))))) (.sqrt (.div (.mul (.mul (.mul (.pow (.add (.num 1 1) (.var 0)) 3) (.var 1)) (.pow (.add (.num 3 1) (.mul (.num 2 1) (.var 1))) 3)) (.add (.add (.neg (.num 1 1)) (.var 1)) (.mul (.num 2 1) (.pow (.var 1) 2)))) (.add (.num 1 1) (.mul (.num 2 1) (.var 1)))))) (.mul (.num 2 1) (.sqrt (.div (.mul (.mul (.mul (.mul (.pow (.var 0) 2) (.pow (.add (.num 1 1) (.var 0)) 3)) (.var 1)) (.pow (.add (.num 3 1) (.mul (.num 2 1) (.var 1))) 3)) (.add (.add (.neg (.num 1 1)) (.var 1)) (.mul (.num 2 1) (.pow (.var 1) 2)))) (.mul (.pow (.add (.num 1 1) (.mul (.num 2 1) (.var 0))) 2) (.add (.num 1 1) (.mul (.num 2 1) (.var 1)))))))) (.div (.mul (.mul (.add (.num 1 1) (.var 1)) (.hpow (.mul (.add (.num 1 1) (.var 0)) (.add (.num 3 1) (.mul (.num 2 1) (.var 1)))) 1)) (.sqrt (.div (.mul (.var 1) (.add (.neg (.num 1 1)) (.mul (.num 2 1) (.var 1)))) (.add (.add (.num 1 1) (.mul (.num 3 1) (.var 1))) (.mul (.num 2 1) (.pow (.var 1) 2)))))) (.add (.num 1 1) (.mul (.num 2 1) (.var 1))))) (.sqrt (.div (.mul (.mul (.mul (.pow (.add (.num 1 1) (.var 0)) 3) (.var 1)) (.add (.neg (.num 1 1)) (.mul (.num 2 1) (.var 1)))) (.pow (.add (.add (.num 3 1) (.mul (.num 5 1) (.var 1))) (.mul (.num 2 1) (.pow (.var 1) 2))) 3)) (.add (.num 1 1) (.mul (.num 2 1) (.var 1)))))) (.mul (.num 2 1) (.sqrt (.div (.mul (.mul (.mul (.mul (.pow (.var 0) 2) (.pow (.add (.num 1 1) (.var 0)) 3)) (.var 1)) (.add (.neg (.num 1 1)) (.mul (.num 2 1) (.var 1)))) (.pow (.add (.add (.num 3 1) (.mul (.num 5 1) (.var 1))) (.mul (.num 2 1) (.pow (.var 1) 2))) 3)) (.mul (.pow (.add (.num 1 1) (.mul (.num 2 1) (.var 0))) 2) (.add (.num 1 1) (.mul (.num 2 1) (.var 1)))))))) (.sqrt (.div (.mul (.mul (.mul (.pow (.add (.num 1 1) (.var 0)) 3) (.var 1)) (.pow (.add (.num 1 1) (.var 1)) 3)) (.pow (.add (.num 3 1) (.mul (.num 2 1) (.var 1))) 4)) (.add (.num 1 1) (.mul (.num 2 1) (.var 1))))),
  .div (.sub (.sub (.sub (.sub (.sub (.neg (.sqrt (.div (.mul (.mul (.mul (.mul (.pow (.add (.num 1 1) (.var 0)) 3) (.add (.num 1 1) (.mul (.num 2 1) (.var 0)))) (.var 1)) (.pow (.add (.num 3 1) (.mul (.num 2 1) (.var 1))) 3)) (.add (.add (.neg (.num 1 1)) (.var 1)) (.mul (.num 2 1) (.pow (.var 1) 2)))) (.mul (.add (.num 3 1) (.mul (.num 2 1) (.var 0))) (.pow (.add (.num 1 1) (.mul (.num 2 1) (.var 1))) 3))))) (.sqrt (.div (.mul (.mul (.mul (.mul (.pow (.add (.num 1 1) (.var 0)) 3) (.add (.num 1 1) (.mul (.num 2 1) (.var 0)))) (.var 1)) (.pow (.add (.num 3 1) (.mul (.num 2 1) (.var 1))) 3)) (.add (.add (.neg (.num 1 1)) (.var 1)) (.mul (.num 2 1) (.pow (.var 1) 2)))) (.mul (.add (.num 3 1) (.mul (.num 2 1) (.var 0))) (.add (.num 1 1) (.mul (.num 2 1) (.var 1))))))) (.mul (.num 2 1) (.sqrt (.div (.mul (.mul (.mul (.pow (.add (.num 1 1) (.var 0)) 3) (.var 1)) (.pow (.add (.num 3 1) (.mul (.num 2 1) (.var 1))) 3)) (.add (.add (.neg (.num 1 1)) (.var 1)) (.mul (.num 2 1) (.pow (.var 1) 2)))) (.mul (.add (.add (.num 3 1) (.mul (.num 8 1) (.var 0))) (.mul (.num 4 1) (.pow (.var 0) 2))) (.add (.num 1 1) (.mul (.num 2 1) (.var 1)))))))) (.sqrt (.div (.mul (.mul (.mul (.mul (.pow (.add (.num 1 1) (.var 0)) 3) (.add (.num 1 1) (.mul (.num 2 1) (.var 0)))) (.var 1)) (.add (.neg (.num 1 1)) (.mul (.num 2 1) (.var 1)))) (.pow (.add (.add (.num 3 1) (.mul (.num 5 1) (.var 1))) (.mul (.num 2 1) (.pow (.var 1) 2))) 3)) (.mul (.add (.num 3 1) (.mul (.num 2 1) (.var 0))) (.add (.num 1 1) (.mul (.num 2 1) (.var 1))))))) (.mul (.num 2 1) (.sqrt (.div (.mul (.mul (.mul (.pow (.add (.num 1 1) (.var 0)) 3) (.var 1)) (.add (.neg (.num 1 1)) (.mul (.num 2 1) (.var 1)))) (.pow (.add (.add (.num 3 1) (.mul (.num 5 1) (.var 1))) (.mul (.num 2 1) (.pow (.var 1) 2))) 3)) (.mul (.add (.add (.num 3 1) (.mul (.num 8 1) (.var 0))) (.mul (.num 4 1) (.pow (.var 0) 2))) (.add (.num 1 1) (.mul (.num 2 1) (.var 1)))))))) (.div (.mul (.mul (.mul (.mul (.num 2 1) (.add (.num 1 1) (.var 0))) (.add (.num 1 1) (.var 1))) (.add (.num 3 1) (.mul (.num 2 1) (.var 1)))) (.sqrt (.div (.mul (.mul (.add (.num 1 1) (.var 0)) (.var 1)) (.add (.add (.neg (.num 3 1)) (.mul (.num 4 1) (.var 1))) (.mul (.num 4 1) (.pow (.var 1) 2)))) (.mul (.add (.add (.num 3 1) (.mul (.num 8 1) (.var 0))) (.mul (.num 4 1) (.pow (.var 0) 2))) (.add (.add (.num 1 1) (.mul (.num 3 1) (.var 1))) (.mul (.num 2 1) (.pow (.var 1) 2))))))) (.add (.num 1 1) (.mul (.num 2 1) (.var 1))))) (.sqrt (.div (.mul (.mul (.mul (.mul (.pow (.add (.num 1 1) (.var 0)) 3) (.add (.num 3 1) (.mul (.num 2 1) (.var 0)))) (.var 1)) (.pow (.add (.num 1 1) (.var 1)) 3)) (.pow (.add (.num 3 1) (.mul (.num 2 1) (.var 1))) 4)) (.mul (.add (.num 1 1) (.mul (.num 2 1) (.var 0))) (.add (.num 1 1) (.mul (.num 2 1) (.var 1)))))),
  .mul (.sqrt (.div (.add (.num 1 1) (.mul (.num 2 1) (.var 0))) (.mul (.mul (.mul (.pow (.add (.num 1 1) (.var 0)) 3) (.pow (.var 1) 3)) (.pow (.add (.num 1 1) (.var 1)) 4)) (.add (.num 1 1) (.mul (.num 2 1) (.var 1)))))) (.sub (.add (.add (.mul (.mul (.mul (.mul (.mul (.neg (.num 2 1)) (.var 0)) (.hpow (.div (.add (.num 1 1) (.var 0)) (.add (.num 1 1) (.mul (.num 2 1) (.var 0)))) 1)) (.var 1)) (.add (.num 1 1) (.var 1))) (.sqrt (.mul (.var 1) (.add (.neg (.num 1 1)) (.mul (.num 2 1) (.var 1)))))) (.mul (.mul (.hpow (.add (.num 1 1) (.var 0)) 1) (.add (.num 1 1) (.var 1))) (.sqrt (.div (.mul (.var 1) (.add (.neg (.num 1 1)) (.mul (.num 2 1) (.var 1)))) (.add (.num 1 1) (.mul (.num 2 1) (.var 0))))))) (.mul (.mul (.mul (.hpow (.add (.num 1 1) (.var 0)) 1) (.var 1)) (.add (.num 1 1) (.var 1))) (.sqrt (.div (.mul (.var 1) (.add (.neg (.num 1 1)) (.mul (.num 2 1) (.var 1)))) (.add (.num 1 1) (.mul (.num 2 1) (.var 0))))))) (.div (.mul (.mul (.num 2 1) (.var 0)) (.var 1)) (.mul (.sqrt (.div (.mul (.var 1) (.add (.num 1 1) (.var 1))) (.add (.neg (.num 1 1)) (.mul (.num 2 1) (.var 1))))) (.hpow (.div (.add (.num 1 1) (.mul (.num 2 1) (.var 0))) (.add (.add (.add (.num 1 1) (.var 0)) (.var 1)) (.mul (.var 0) (.var 1)))) 1)))),
  .div (.sqrt (.add (.add (.neg (.num 3 1)) (.mul (.num 4 1) (.var 1))) (.mul (.num 4 1) (.pow (.var 1) 2)))) (.add (.add (.add (.num 1 1) (.mul (.num 2 1) (.var 0))) (.mul (.num 2 1) (.var 1))) (.mul (.mul (.num 4 1) (.var 0)) (.var 1))),
  .div (.mul (.sqrt (.div (.mul (.add (.num 1 1) (.mul (.num 2 1) (.var 0))) (.add (.num 1 1) (.mul (.num 2 1) (.var 1)))) (.mul (.add (.num 3 1) (.mul (.num 2 1) (.var 0))) (.var 1)))) (.sub (.sub (.sub (.sub (.sub (.neg (.mul (.sqrt (.div (.mul (.mul (.mul (.add (.num 1 1) (.mul (.num 2 1) (.var 0))) (.var 1)) (.add (.num 1 1) (.var 1))) (.add (.neg (.num 1 1)) (.mul (.num 2 1) (.var 1)))) (.mul (.add (.num 3 1) (.mul (.num 2 1) (.var 0))) (.add (.num 1 1) (.mul (.num 2 1) (.var 1)))))) (.hpow (.mul (.add (.num 1 1) (.var 0)) (.add (.num 3 1) (.mul (.num 2 1) (.var 1)))) 1))) (.mul (.sqrt (.div (.mul (.mul (.mul (.add (.num 1 1) (.mul (.num 2 1) (.var 0))) (.var 1)) (.add (.num 1 1) (.var 1))) (.add (.neg (.num 1 1)) (.mul (.num 2 1) (.var 1)))) (.add (.num 3 1) (.mul (.num 2 1) (.var 0))))) (.hpow (.div (.mul (.add (.num 1 1) (.var 0)) (.add (.num 3 1) (.mul (.num 2 1) (.var 1)))) (.add (.num 1 1) (.mul (.num 2 1) (.var 1)))) 1))) (.mul (.mul (.num 2 1) (.hpow (.mul (.add (.num 1 1) (.var 0)) (.add (.num 3 1) (.mul (.num 2 1) (.var 1)))) 1)) (.sqrt (.div (.mul (.var 1) (.add (.add (.neg (.num 1 1)) (.var 1)) (.mul (.num 2 1) (.pow (.var 1) 2)))) (.mul (.add (.add (.num 3 1) (.mul (.num 8 1) (.var 0))) (.mul (.num 4 1) (.pow (.var 0) 2))) (.add (.num 1 1) (.mul (.num 2 1) (.var 1)))))))) (.div (.mul (.mul (.mul (.mul (.num 2 1) (.add (.num 1 1) (.var 0))) (.add (.num 1 1) (.var 1))) (.add (.num 3 1) (.mul (.num 2 1) (.var 1)))) (.sqrt (.div (.mul (.mul (.mul (.add (.num 1 1) (.var 0)) (.var 1)) (.add (.neg (.num 1 1)) (.mul (.num 2 1) (.var 1)))) (.add (.num 3 1) (.mul (.num 2 1) (.var 1)))) (.mul (.add (.add (.num 3 1) (.mul (.num 8 1) (.var 0))) (.mul (.num 4 1) (.pow (.var 0) 2))) (.add (.add (.num 1 1) (.mul (.num 3 1) (.var 1))) (.mul (.num 2 1) (.pow (.var 1) 2))))))) (.add (.num 1 1) (.mul (.num 2 1) (.var 1))))) (.mul (.sqrt (.div (.mul (.mul (.add (.num 1 1) (.mul (.num 2 1) (.var 0))) (.var 1)) (.add (.neg (.num 1 1)) (.mul (.num 2 1) (.var 1)))) (.mul (.add (.num 3 1) (.mul (.num 2 1) (.var 0))) (.add (.num 1 1) (.mul (.num 2 1) (.var 1)))))) (.hpow (.mul (.add (.num 1 1) (.var 0)) (.add (.add (.num 3 1) (.mul (.num 5 1) (.var 1))) (.mul (.num 2 1) (.pow (.var 1) 2)))) 1))) (.mul (.mul (.num 2 1) (.sqrt (.div (.mul (.var 1) (.add (.neg (.num 1 1)) (.mul (.num 2 1) (.var 1)))) (.mul (.add (.add (.num 3 1) (.mul (.num 8 1) (.var 0))) (.mul (.num 4 1) (.pow (.var 0) 2))) (.add (.num 1 1) (.mul (.num 2 1) (.var 1))))))) (.hpow (.mul (.add (.num 1 1) (.var 0)) (.add (.add (.num 3 1) (.mul (.num 5 1) (.var 1))) (.mul (.num 2 1) (.pow (.var 1) 2)))) 1)))) (.mul (.hpow (.mul (.add (.num 1 1) (.var 0)) (.add (.num 1 1) (.var 1))) 1) (.pow (.add (.num 3 1) (.mul (.num 2 1) (.var 1))) 2)),
  .div (.mul (.mul (.neg (.num 2 1)) (.sqrt (.num 2 1))) (.sqrt (.div (.mul (.var 0) (.add (.num 1 1) (.var 0))) (.mul (.add (.neg (.num 1 1)) (.var 1)) (.var 1))))) (.add (.num 1 1) (.mul (.num 2 1) (.var 0))),
  .mul (.mul (.neg (.num 2 1)) (.sqrt (.num 6 1))) (.sqrt (.div (.mul (.var 0) (.add (.num 1 1) (.var 0))) (.mul (.pow (.add (.num 1 1) (.mul (.num 2 1) (.var 0))) 2) (.add (.sub (.sub (.var 1) (.pow (.var 1) 2)) (.mul (.num 4 1) (.pow (.var 1) 3))) (.mul (.num 4 1) (.pow (.var 1) 4)))))),
  .div (.mul (.neg (.num 2 1)) (.add (.add (.sub (.mul (.num 2 1) (.sqrt (.div (.mul (.var 0) (.add (.num 1 1) (.var 1))) (.mul (.mul (.add (.num 1 1) (.mul (.num 2 1) (.var 0))) (.add (.neg (.num 2 1)) (.var 1))) (.var 1))))) (.mul (.mul (.num 3 1) (.var 1)) (.sqrt (.div (.mul (.var 0) (.add (.num 1 1) (.var 1))) (.mul (.mul (.add (.num 1 1) (.mul (.num 2 1) (.var 0))) (.add (.neg (.num 2 1)) (.var 1))) (.var 1)))))) (.mul (.pow (.var 1) 2) (.sqrt (.div (.mul (.var 0) (.add (.num 1 1) (.var 1))) (.mul (.mul (.add (.num 1 1) (.mul (.num 2 1) (.var 0))) (.add (.neg (.num 2 1)) (.var 1))) (.var 1)))))) (.mul (.num 2 1) (.sqrt (.div (.mul (.mul (.var 0) (.add (.neg (.num 2 1)) (.var 1))) (.add (.num 1 1) (.var 1))) (.add (.var 1) (.mul (.mul (.num 2 1) (.var 0)) (.var 1)))))))) (.mul (.sqrt (.div (.mul (.add (.num 1 1) (.mul (.num 2 1) (.var 0))) (.add (.neg (.num 1 1)) (.var 1))) (.add (.num 1 1) (.var 0)))) (.add (.num 1 1) (.var 1))),
  .div (.mul (.mul (.mul (.neg (.num 2 1)) (.sqrt (.num 3 1))) (.sqrt (.div (.add (.num 1 1) (.var 0)) (.mul (.add (.num 1 1) (.mul (.num 2 1) (.var 0))) (.add (.neg (.num 1 1)) (.var 1)))))) (.add (.sub (.add (.mul (.num 2 1) (.sqrt (.div (.mul (.var 0) (.add (.sub (.neg (.num 3 1)) (.var 1)) (.mul (.num 2 1) (.pow (.var 1) 2)))) (.mul (.add (.num 1 1) (.mul (.num 2 1) (.var 0))) (.add (.num 1 1) (.mul (.num 2 1) (.var 1))))))) (.mul (.num 3 1) (.sqrt (.div (.mul (.var 0) (.add (.num 1 1) (.var 1))) (.mul (.add (.num 1 1) (.mul (.num 2 1) (.var 0))) (.add (.sub (.neg (.num 3 1)) (.mul (.num 4 1) (.var 1))) (.mul (.num 4 1) (.pow (.var 1) 2)))))))) (.mul (.mul (.num 5 1) (.var 1)) (.sqrt (.div (.mul (.var 0) (.add (.num 1 1) (.var 1))) (.mul (.add (.num 1 1) (.mul (.num 2 1) (.var 0))) (.add (.sub (.neg (.num 3 1)) (.mul (.num 4 1) (.var 1))) (.mul (.num 4 1) (.pow (.var 1) 2)))))))) (.mul (.mul (.num 2 1) (.pow (.var 1) 2)) (.sqrt (.div (.mul (.var 0) (.add (.num 1 1) (.var 1))) (.mul (.add (.num 1 1) (.mul (.num 2 1) (.var 0))) (.add (.sub (.neg (.num 3 1)) (.mul (.num 4 1) (.var 1))) (.mul (.num 4 1) (.pow (.var 1) 2))))))))) (.mul (.var 1) (.add (.num 1 1) (.var 1))),
  .div (.mul (.neg (.num 6 1)) (.sqrt (.mul (.var 0) (.add (.num 1 1) (.var 0))))) (.mul (.add (.num 1 1) (.mul (.num 2 1) (.var 0))) (.add (.var 1) (.mul (.num 2 1) (.pow (.var 1) 2)))),
  .div (.mul (.mul (.neg (.num 2 1)) (.sqrt (.div (.add (.num 1 1) (.var 0)) (.mul (.add (.var 1) (.mul (.mul (.num 2 1) (.var 0)) (.var 1))) (.add (.add (.num 3 1) (.mul (.num 5 1) (.var 1))) (.mul (.num 2 1) (.pow (.var 1) 2))))))) (.sub (.add (.add (.sub (.add (.mul (.num 9 1) (.sqrt (.div (.mul (.var 0) (.add (.sub (.num 1 1) (.mul (.num 3 1) (.var 1))) (.mul (.num 2 1) (.pow (.var 1) 2)))) (.mul (.mul (.add (.num 1 1) (.mul (.num 2 1) (.var 0))) (.var 1)) (.add (.sub (.neg (.num 3 1)) (.mul (.num 4 1) (.var 1))) (.mul (.num 4 1) (.pow (.var 1) 2))))))) (.mul (.num 6 1) (.sqrt (.div (.mul (.var 0) (.add (.sub (.add (.neg (.num 3 1)) (.mul (.num 11 1) (.var 1))) (.mul (.num 12 1) (.pow (.var 1) 2))) (.mul (.num 4 1) (.pow (.var 1) 3)))) (.mul (.add (.num 1 1) (.mul (.num 2 1) (.var 0))) (.add (.var 1) (.mul (.num 2 1) (.pow (.var 1) 2)))))))) (.mul (.mul (.num 12 1) (.pow (.var 1) 3)) (.sqrt (.div (.mul (.var 0) (.add (.neg (.num 1 1)) (.mul (.num 2 1) (.var 1)))) (.mul (.mul (.add (.num 1 1) (.mul (.num 2 1) (.var 0))) (.var 1)) (.add (.sub (.add (.num 3 1) (.var 1)) (.mul (.num 8 1) (.pow (.var 1) 2))) (.mul (.num 4 1) (.pow (.var 1) 3)))))))) (.mul (.mul (.num 4 1) (.pow (.var 1) 4)) (.sqrt (.div (.mul (.var 0) (.add (.neg (.num 1 1)) (.mul (.num 2 1) (.var 1)))) (.mul (.mul (.add (.num 1 1) (.mul (.num 2 1) (.var 0))) (.var 1)) (.add (.sub (.add (.num 3 1) (.var 1)) (.mul (.num 8 1) (.pow (.var 1) 2))) (.mul (.num 4 1) (.pow (.var 1) 3)))))))) (.mul (.pow (.var 1) 2) (.add (.mul (.num 12 1) (.sqrt (.div (.mul (.var 0) (.add (.sub (.num 1 1) (.mul (.num 3 1) (.var 1))) (.mul (.num 2 1) (.pow (.var 1) 2)))) (.mul (.mul (.add (.num 1 1) (.mul (.num 2 1) (.var 0))) (.var 1)) (.add (.sub (.neg (.num 3 1)) (.mul (.num 4 1) (.var 1))) (.mul (.num 4 1) (.pow (.var 1) 2))))))) (.mul (.num 11 1) (.sqrt (.div (.mul (.var 0) (.add (.neg (.num 1 1)) (.mul (.num 2 1) (.var 1)))) (.mul (.mul (.add (.num 1 1) (.mul (.num 2 1) (.var 0))) (.var 1)) (.add (.sub (.add (.num 3 1) (.var 1)) (.mul (.num 8 1) (.pow (.var 1) 2))) (.mul (.num 4 1) (.pow (.var 1) 3)))))))))) (.mul (.mul (.num 3 1) (.var 1)) (.add (.sqrt (.div (.mul (.var 0) (.add (.neg (.num 1 1)) (.mul (.num 2 1) (.var 1)))) (.mul (.mul (.add (.num 1 1) (.mul (.num 2 1) (.var 0))) (.var 1)) (.add (.sub (.add (.num 3 1) (.var 1)) (.mul (.num 8 1) (.pow (.var 1) 2))) (.mul (.num 4 1) (.pow (.var 1) 3)))))) (.mul (.num 8 1) (.sqrt (.div (.mul (.var 0) (.add (.sub (.num 1 1) (.mul (.num 3 1) (.var 1))) (.mul (.num 2 1) (.pow (.var 1) 2)))) (.mul (.add (.num 1 1) (.mul (.num 2 1) (.var 0))) (.add (.sub (.mul (.neg (.num 3 1)) (.var 1)) (.mul (.num 4 1) (.pow (.var 1) 2))) (.mul (.num 4 1) (.pow (.var 1) 3))))))))))) (.add (.neg (.num 1 1)) (.mul (.num 2 1) (.var 1))),
  .div (.mul (.mul (.mul (.neg (.num 2 1)) (.sqrt (.num 3 1))) (.add (.neg (.num 1 1)) (.var 1))) (.sqrt (.div (.mul (.mul (.var 0) (.add (.num 1 1) (.var 0))) (.add (.num 3 1) (.mul (.num 2 1) (.var 1)))) (.mul (.pow (.add (.num 1 1) (.mul (.num 2 1) (.var 0))) 2) (.add (.add (.sub (.neg (.num 1 1)) (.mul (.num 2 1) (.var 1))) (.pow (.var 1) 2)) (.mul (.num 2 1) (.pow (.var 1) 3))))))) (.var 1),
  .div (.mul (.mul (.neg (.num 2 1)) (.sqrt (.num 6 1))) (.sqrt (.div (.mul (.var 0) (.add (.num 1 1) (.var 0))) (.mul (.var 1) (.add (.add (.add (.num 3 1) (.mul (.num 11 1) (.var 1))) (.mul (.num 12 1) (.pow (.var 1) 2))) (.mul (.num 4 1) (.pow (.var 1) 3))))))) (.add (.num 1 1) (.mul (.num 2 1) (.var 0))),
  .div (.mul (.mul (.mul (.neg (.num 2 1)) (.add (.neg (.num 1 1)) (.var 1))) (.sqrt (.neg (.div (.add (.num 1 1) (.var 0)) (.sub (.add (.num 1 1) (.var 1)) (.mul (.num 2 1) (.pow (.var 1) 2))))))) (.add (.add (.add (.mul (.num 6 1) (.sqrt (.div (.mul (.mul (.var 0) (.var 1)) (.add (.add (.add (.neg (.num 6 1)) (.mul (.num 5 1) (.var 1))) (.mul (.num 12 1) (.pow (.var 1) 2))) (.mul (.num 4 1) (.pow (.var 1) 3)))) (.add (.num 1 1) (.mul (.num 2 1) (.var 1)))))) (.sqrt (.mul (.mul (.var 0) (.pow (.var 1) 3)) (.add (.add (.add (.sub (.neg (.num 6 1)) (.mul (.num 7 1) (.var 1))) (.mul (.num 22 1) (.pow (.var 1) 2))) (.mul (.num 28 1) (.pow (.var 1) 3))) (.mul (.num 8 1) (.pow (.var 1) 4)))))) (.sqrt (.mul (.mul (.var 0) (.pow (.var 1) 5)) (.add (.add (.add (.sub (.neg (.num 6 1)) (.mul (.num 7 1) (.var 1))) (.mul (.num 22 1) (.pow (.var 1) 2))) (.mul (.num 28 1) (.pow (.var 1) 3))) (.mul (.num 8 1) (.pow (.var 1) 4)))))) (.mul (.mul (.num 3 1) (.var 1)) (.add (.mul (.num 3 1) (.sqrt (.div (.mul (.mul (.var 0) (.var 1)) (.add (.add (.add (.neg (.num 6 1)) (.mul (.num 5 1) (.var 1))) (.mul (.num 12 1) (.pow (.var 1) 2))) (.mul (.num 4 1) (.pow (.var 1) 3)))) (.add (.num 1 1) (.mul (.num 2 1) (.var 1)))))) (.sqrt (.mul (.mul (.var 0) (.var 1)) (.add (.add (.add (.sub (.neg (.num 6 1)) (.mul (.num 7 1) (.var 1))) (.mul (.num 22 1) (.pow (.var 1) 2))) (.mul (.num 28 1) (.pow (.var 1) 3))) (.mul (.num 8 1) (.pow (.var 1) 4))))))))) (.mul (.mul (.mul (.add (.num 1 1) (.mul (.num 2 1) (.var 0))) (.var 1)) (.hpow (.add (.num 1 1) (.var 1)) 1)) (.add (.add (.num 6 1) (.mul (.num 7 1) (.var 1))) (.mul (.num 2 1) (.pow (.var 1) 2)))),
  .div (.mul (.mul (.mul (.neg (.num 2 1)) (.sqrt (.num 2 1))) (.sqrt (.div (.add (.num 1 1) (.var 0)) (.add (.var 1) (.mul (.mul (.num 2 1) (.var 0)) (.var 1)))))) (.add (.mul (.num 6 1) (.sqrt (.div (.mul (.var 0) (.add (.neg (.num 1 1)) (.mul (.num 2 1) (.var 1)))) (.mul (.add (.num 1 1) (.mul (.num 2 1) (.var 0))) (.add (.add (.num 1 1) (.mul (.num 3 1) (.var 1))) (.mul (.num 2 1) (.pow (.var 1) 2))))))) (.mul (.var 1) (.add (.add (.mul (.num 9 1) (.sqrt (.div (.mul (.var 0) (.add (.neg (.num 1 1)) (.mul (.num 2 1) (.var 1)))) (.mul (.add (.num 1 1) (.mul (.num 2 1) (.var 0))) (.add (.add (.num 1 1) (.mul (.num 3 1) (.var 1))) (.mul (.num 2 1) (.pow (.var 1) 2))))))) (.mul (.num 3 1) (.sqrt (.div (.mul (.var 0) (.add (.neg (.num 1 1)) (.mul (.num 4 1) (.pow (.var 1) 2)))) (.mul (.add (.num 1 1) (.mul (.num 2 1) (.var 0))) (.add (.num 1 1) (.var 1))))))) (.sqrt (.div (.mul (.var 0) (.add (.add (.sub (.neg (.num 1 1)) (.var 1)) (.mul (.num 4 1) (.pow (.var 1) 2))) (.mul (.num 4 1) (.pow (.var 1) 3)))) (.add (.num 1 1) (.mul (.num 2 1) (.var 0))))))))) (.add (.add (.add (.num 6 1) (.mul (.num 13 1) (.var 1))) (.mul (.num 9 1) (.pow (.var 1) 2))) (.mul (.num 2 1) (.pow (.var 1) 3))),
  .div (.mul (.neg (.num 2 1)) (.add (.add (.add (.add (.sqrt (.div (.mul (.mul (.mul (.var 0) (.add (.neg (.num 1 1)) (.mul (.num 2 1) (.var 1)))) (.add (.num 1 1) (.mul (.num 2 1) (.var 1)))) (.add (.add (.num 2 1) (.mul (.num 3 1) (.var 1))) (.pow (.var 1) 2))) (.add (.num 1 1) (.mul (.num 2 1) (.var 0))))) (.mul (.num 6 1) (.sqrt (.div (.mul (.mul (.var 0) (.add (.neg (.num 1 1)) (.mul (.num 2 1) (.var 1)))) (.add (.add (.num 1 1) (.mul (.num 3 1) (.var 1))) (.mul (.num 2 1) (.pow (.var 1) 2)))) (.mul (.mul (.add (.num 1 1) (.mul (.num 2 1) (.var 0))) (.add (.num 2 1) (.var 1))) (.pow (.add (.num 3 1) (.mul (.num 2 1) (.var 1))) 2)))))) (.mul (.num 2 1) (.sqrt (.div (.mul (.mul (.var 0) (.add (.num 1 1) (.var 1))) (.add (.neg (.num 1 1)) (.mul (.num 4 1) (.pow (.var 1) 2)))) (.mul (.add (.num 1 1) (.mul (.num 2 1) (.var 0))) (.add (.num 2 1) (.var 1))))))) (.div (.mul (.num 6 1) (.sqrt (.div (.mul (.var 0) (.add (.neg (.num 1 1)) (.mul (.num 4 1) (.pow (.var 1) 2)))) (.mul (.add (.num 1 1) (.mul (.num 2 1) (.var 0))) (.add (.add (.num 2 1) (.mul (.num 3 1) (.var 1))) (.pow (.var 1) 2)))))) (.add (.num 3 1) (.mul (.num 2 1) (.var 1))))) (.div (.mul (.num 6 1) (.sqrt (.div (.mul (.var 0) (.add (.neg (.num 1 1)) (.mul (.num 2 1) (.var 1)))) (.mul (.add (.num 1 1) (.mul (.num 2 1) (.var 0))) (.add (.add (.add (.num 2 1) (.mul (.num 7 1) (.var 1))) (.mul (.num 7 1) (.pow (.var 1) 2))) (.mul (.num 2 1) (.pow (.var 1) 3))))))) (.add (.num 3 1) (.mul (.num 2 1) (.var 1)))))) (.sqrt (.div (.mul (.add (.num 1 1) (.mul (.num 2 1) (.var 0))) (.add (.add (.add (.add (.num 30 1) (.mul (.num 77 1) (.var 1))) (.mul (.num 71 1) (.pow (.var 1) 2))) (.mul (.num 28 1) (.pow (.var 1) 3))) (.mul (.num 4 1) (.pow (.var 1) 4)))) (.add (.num 1 1) (.var 0)))),
  .div (.sqrt (.num 2 1)) (.mul (.add (.num 1 1) (.mul (.num 2 1) (.var 0))) (.sqrt (.mul (.add (.neg (.num 1 1)) (.var 1)) (.var 1)))),
  .div (.sqrt (.num 6 1)) (.mul (.add (.num 1 1) (.mul (.num 2 1) (.var 0))) (.sqrt (.mul (.mul (.var 1) (.add (.num 1 1) (.mul (.num 2 1) (.var 1)))) (.add (.sub (.num 1 1) (.mul (.num 3 1) (.var 1))) (.mul (.num 2 1) (.pow (.var 1) 2)))))),
  .neg (.div (.sqrt (.num 2 1)) (.sqrt (.mul (.add (.neg (.num 1 1)) (.var 1)) (.var 1)))),
  .neg (.div (.sqrt (.num 6 1)) (.sqrt (.mul (.var 1) (.add (.sub (.sub (.num 1 1) (.var 1)) (.mul (.num 4 1) (.pow (.var 1) 2))) (.mul (.num 4 1) (.pow (.var 1) 3)))))),
  .div (.add (.sub (.neg (.num 2 1)) (.var 1)) (.pow (.var 1) 2)) (.mul (.add (.num 1 1) (.mul (.num 2 1) (.var 0))) (.sqrt (.mul (.var 1) (.add (.sub (.sub (.num 2 1) (.var 1)) (.mul (.num 2 1) (.pow (.var 1) 2))) (.pow (.var 1) 3))))),
  .mul (.mul (.sqrt (.num 3 2)) (.sqrt (.add (.num 1 1) (.var 0)))) (.add (.sub (.sub (.div (.num 2 1) (.sqrt (.div (.mul (.mul (.mul (.mul (.add (.num 1 1) (.var 0)) (.add (.neg (.num 1 1)) (.var 1))) (.pow (.var 1) 2)) (.add (.num 1 1) (.var 1))) (.add (.num 1 1) (.mul (.num 2 1) (.var 1)))) (.add (.neg (.num 6 1)) (.mul (.num 4 1) (.var 1)))))) (.div (.mul (.num 4 1) (.var 0)) (.mul (.add (.var 1) (.mul (.mul (.num 2 1) (.var 0)) (.var 1))) (.sqrt (.div (.mul (.mul (.add (.num 1 1) (.var 0)) (.add (.num 1 1) (.var 1))) (.sub (.add (.num 1 1) (.var 1)) (.mul (.num 2 1) (.pow (.var 1) 2)))) (.sub (.num 6 1) (.mul (.num 4 1) (.var 1)))))))) (.div (.mul (.mul (.mul (.mul (.num 2 1) (.sqrt (.num 2 1))) (.var 0)) (.add (.neg (.num 1 1)) (.var 1))) (.add (.neg (.num 3 1)) (.mul (.num 2 1) (.var 1)))) (.mul (.mul (.add (.num 1 1) (.mul (.num 2 1) (.var 0))) (.var 1)) (.sqrt (.mul (.mul (.add (.num 1 1) (.var 0)) (.add (.neg (.num 1 1)) (.pow (.var 1) 2))) (.add (.sub (.neg (.num 3 1)) (.mul (.num 4 1) (.var 1))) (.mul (.num 4 1) (.pow (.var 1) 2)))))))) (.div (.mul (.mul (.sqrt (.num 2 1)) (.add (.neg (.num 1 1)) (.var 1))) (.add (.neg (.num 3 1)) (.mul (.num 2 1) (.var 1)))) (.mul (.sqrt (.var 1)) (.sqrt (.mul (.mul (.mul (.add (.num 1 1) (.var 0)) (.var 1)) (.add (.neg (.num 1 1)) (.pow (.var 1) 2))) (.add (.sub (.neg (.num 3 1)) (.mul (.num 4 1) (.var 1))) (.mul (.num 4 1) (.pow (.var 1) 2)))))))),
  .div (.num 3 1) (.mul (.add (.num 1 1) (.mul (.num 2 1) (.var 0))) (.add (.var 1) (.mul (.num 2 1) (.pow (.var 1) 2)))),
  .mul (.sub (.add (.num 2 1) (.var 1)) (.pow (.var 1) 2)) (.sqrt (.div (.num 1 1) (.mul (.mul (.add (.neg (.num 2 1)) (.var 1)) (.var 1)) (.add (.neg (.num 1 1)) (.pow (.var 1) 2))))),
  .neg (.mul (.mul (.sqrt (.num 3 2)) (.sqrt (.add (.num 1 1) (.var 0)))) (.add (.add (.add (.div (.num 4 1) (.sqrt (.div (.mul (.mul (.mul (.mul (.mul (.add (.num 1 1) (.var 0)) (.pow (.add (.num 3 1) (.mul (.num 2 1) (.var 0))) 2)) (.add (.neg (.num 1 1)) (.var 1))) (.pow (.var 1) 2)) (.add (.num 1 1) (.var 1))) (.add (.num 1 1) (.mul (.num 2 1) (.var 1)))) (.add (.neg (.num 6 1)) (.mul (.num 4 1) (.var 1)))))) (.div (.mul (.mul (.mul (.num 2 1) (.sqrt (.num 2 1))) (.add (.neg (.num 1 1)) (.var 1))) (.add (.neg (.num 3 1)) (.mul (.num 2 1) (.var 1)))) (.mul (.mul (.add (.num 3 1) (.mul (.num 2 1) (.var 0))) (.var 1)) (.sqrt (.mul (.mul (.add (.num 1 1) (.var 0)) (.add (.neg (.num 1 1)) (.pow (.var 1) 2))) (.add (.sub (.neg (.num 3 1)) (.mul (.num 4 1) (.var 1))) (.mul (.num 4 1) (.pow (.var 1) 2)))))))) (.div (.mul (.mul (.mul (.sqrt (.num 2 1)) (.add (.num 1 1) (.mul (.num 2 1) (.var 0)))) (.add (.neg (.num 1 1)) (.var 1))) (.add (.neg (.num 3 1)) (.mul (.num 2 1) (.var 1)))) (.mul (.mul (.add (.num 3 1) (.mul (.num 2 1) (.var 0))) (.var 1)) (.sqrt (.mul (.mul (.add (.num 1 1) (.var 0)) (.add (.neg (.num 1 1)) (.pow (.var 1) 2))) (.add (.sub (.neg (.num 3 1)) (.mul (.num 4 1) (.var 1))) (.mul (.num 4 1) (.pow (.var 1) 2)))))))) (.div (.mul (.mul (.num 2 1) (.add (.num 1 1) (.mul (.num 2 1) (.var 0)))) (.sqrt (.div (.add (.neg (.num 6 1)) (.mul (.num 4 1) (.var 1))) (.mul (.mul (.add (.num 1 1) (.var 0)) (.pow (.var 1) 2)) (.add (.add (.sub (.neg (.num 1 1)) (.mul (.num 2 1) (.var 1))) (.pow (.var 1) 2)) (.mul (.num 2 1) (.pow (.var 1) 3))))))) (.add (.num 3 1) (.mul (.num 2 1) (.var 0)))))),
  .div (.neg (.num 3 1)) (.add (.var 1) (.mul (.num 2 1) (.pow (.var 1) 2))),
  .div (.add (.sub (.num 9 1) (.mul (.num 13 1) (.pow (.var 1) 2))) (.mul (.num 4 1) (.pow (.var 1) 4))) (.mul (.add (.var 1) (.mul (.mul (.num 2 1) (.var 0)) (.var 1))) (.sqrt (.add (.sub (.add (.neg (.num 9 1)) (.mul (.num 49 1) (.pow (.var 1) 2))) (.mul (.num 56 1) (.pow (.var 1) 4))) (.mul (.num 16 1) (.pow (.var 1) 6))))),
  .mul (.mul (.sqrt (.num 3 1)) (.sqrt (.add (.num 1 1) (.var 0)))) (.sub (.sub (.add (.sub (.add (.mul (.mul (.mul (.num 3 1) (.add (.neg (.num 1 1)) (.var 1))) (.add (.neg (.num 1 1)) (.mul (.num 2 1) (.var 1)))) (.sqrt (.div (.num 1 1) (.mul (.mul (.mul (.add (.num 1 1) (.var 0)) (.pow (.var 1) 2)) (.pow (.add (.num 1 1) (.var 1)) 3)) (.add (.add (.sub (.neg (.num 3 1)) (.mul (.num 5 1) (.var 1))) (.mul (.num 4 1) (.pow (.var 1) 2))) (.mul (.num 4 1) (.pow (.var 1) 3))))))) (.div (.mul (.num 6 1) (.sqrt (.div (.add (.neg (.num 1 1)) (.var 1)) (.mul (.add (.num 1 1) (.var 0)) (.add (.add (.add (.num 3 1) (.mul (.num 11 1) (.var 1))) (.mul (.num 12 1) (.pow (.var 1) 2))) (.mul (.num 4 1) (.pow (.var 1) 3))))))) (.add (.var 1) (.pow (.var 1) 2)))) (.div (.mul (.num 12 1) (.var 0)) (.mul (.mul (.mul (.add (.num 1 1) (.mul (.num 2 1) (.var 0))) (.var 1)) (.add (.num 1 1) (.var 1))) (.sqrt (.div (.mul (.add (.num 1 1) (.var 0)) (.add (.add (.add (.num 3 1) (.mul (.num 11 1) (.var 1))) (.mul (.num 12 1) (.pow (.var 1) 2))) (.mul (.num 4 1) (.pow (.var 1) 3)))) (.add (.neg (.num 1 1)) (.var 1))))))) (.div (.mul (.add (.neg (.num 1 1)) (.var 1)) (.add (.neg (.num 1 1)) (.mul (.num 2 1) (.var 1)))) (.mul (.add (.num 1 1) (.var 1)) (.sqrt (.mul (.add (.num 1 1) (.var 0)) (.add (.add (.sub (.sub (.neg (.num 3 1)) (.mul (.num 8 1) (.var 1))) (.pow (.var 1) 2)) (.mul (.num 8 1) (.pow (.var 1) 3))) (.mul (.num 4 1) (.pow (.var 1) 4)))))))) (.div (.mul (.mul (.mul (.num 6 1) (.var 0)) (.add (.neg (.num 1 1)) (.var 1))) (.add (.neg (.num 1 1)) (.mul (.num 2 1) (.var 1)))) (.mul (.mul (.mul (.add (.num 1 1) (.mul (.num 2 1) (.var 0))) (.var 1)) (.add (.num 1 1) (.var 1))) (.sqrt (.mul (.add (.num 1 1) (.var 0)) (.add (.add (.sub (.sub (.neg (.num 3 1)) (.mul (.num 8 1) (.var 1))) (.pow (.var 1) 2)) (.mul (.num 8 1) (.pow (.var 1) 3))) (.mul (.num 4 1) (.pow (.var 1) 4)))))))) (.div (.mul (.mul (.mul (.num 2 1) (.var 0)) (.add (.neg (.num 1 1)) (.var 1))) (.hpow (.add (.neg (.num 1 1)) (.mul (.num 2 1) (.var 1))) 1)) (.mul (.mul (.add (.num 1 1) (.mul (.num 2 1) (.var 0))) (.add (.num 1 1) (.var 1))) (.sqrt (.mul (.add (.num 1 1) (.var 0)) (.add (.add (.sub (.sub (.add (.num 3 1) (.mul (.num 2 1) (.var 1))) (.mul (.num 15 1) (.pow (.var 1) 2))) (.mul (.num 10 1) (.pow (.var 1) 3))) (.mul (.num 12 1) (.pow (.var 1) 4))) (.mul (.num 8 1) (.pow (.var 1) 5)))))))),
  .neg (.mul (.mul (.sqrt (.num 6 1)) (.sqrt (.add (.num 1 1) (.var 0)))) (.add (.add (.add (.add (.add (.mul (.neg (.num 6 1)) (.sqrt (.div (.num 1 1) (.mul (.mul (.add (.num 1 1) (.var 0)) (.add (.var 1) (.mul (.num 2 1) (.pow (.var 1) 2)))) (.pow (.add (.add (.num 3 1) (.mul (.num 5 1) (.var 1))) (.mul (.num 2 1) (.pow (.var 1) 2))) 3))))) (.div (.sub (.num 3 1) (.mul (.num 6 1) (.var 1))) (.mul (.sqrt (.mul (.mul (.add (.num 1 1) (.var 0)) (.var 1)) (.add (.num 1 1) (.mul (.num 2 1) (.var 1))))) (.hpow (.add (.add (.num 3 1) (.mul (.num 5 1) (.var 1))) (.mul (.num 2 1) (.pow (.var 1) 2))) 1)))) (.div (.sub (.var 1) (.mul (.num 2 1) (.pow (.var 1) 2))) (.sqrt (.mul (.mul (.mul (.add (.num 1 1) (.var 0)) (.var 1)) (.add (.num 1 1) (.mul (.num 2 1) (.var 1)))) (.pow (.add (.add (.num 3 1) (.mul (.num 5 1) (.var 1))) (.mul (.num 2 1) (.pow (.var 1) 2))) 3))))) (.div (.mul (.mul (.mul (.mul (.num 12 1) (.var 0)) (.add (.num 1 1) (.var 0))) (.var 1)) (.add (.num 1 1) (.mul (.num 2 1) (.var 1)))) (.mul (.add (.num 1 1) (.mul (.num 2 1) (.var 0))) (.hpow (.mul (.mul (.add (.num 1 1) (.var 0)) (.var 1)) (.add (.add (.add (.num 3 1) (.mul (.num 11 1) (.var 1))) (.mul (.num 12 1) (.pow (.var 1) 2))) (.mul (.num 4 1) (.pow (.var 1) 3)))) 1)))) (.div (.mul (.mul (.mul (.num 2 1) (.var 0)) (.var 1)) (.add (.neg (.num 1 1)) (.mul (.num 2 1) (.var 1)))) (.mul (.mul (.add (.num 1 1) (.mul (.num 2 1) (.var 0))) (.add (.add (.num 3 1) (.mul (.num 5 1) (.var 1))) (.mul (.num 2 1) (.pow (.var 1) 2)))) (.sqrt (.mul (.mul (.add (.num 1 1) (.var 0)) (.var 1)) (.add (.add (.add (.num 3 1) (.mul (.num 11 1) (.var 1))) (.mul (.num 12 1) (.pow (.var 1) 2))) (.mul (.num 4 1) (.pow (.var 1) 3)))))))) (.div (.mul (.mul (.num 6 1) (.var 0)) (.hpow (.add (.neg (.num 1 1)) (.mul (.num 2 1) (.var 1))) 1)) (.mul (.mul (.add (.num 1 1) (.mul (.num 2 1) (.var 0))) (.add (.add (.num 3 1) (.mul (.num 5 1) (.var 1))) (.mul (.num 2 1) (.pow (.var 1) 2)))) (.sqrt (.mul (.mul (.add (.num 1 1) (.var 0)) (.var 1)) (.add (.add (.add (.sub (.neg (.num 3 1)) (.mul (.num 5 1) (.var 1))) (.mul (.num 10 1) (.pow (.var 1) 2))) (.mul (.num 20 1) (.pow (.var 1) 3))) (.mul (.num 8 1) (.pow (.var 1) 4))))))))),
  .div (.sub (.add (.neg (.num 9 1)) (.mul (.num 13 1) (.pow (.var 1) 2))) (.mul (.num 4 1) (.pow (.var 1) 4))) (.mul (.var 1) (.sqrt (.add (.sub (.add (.neg (.num 9 1)) (.mul (.num 49 1) (.pow (.var 1) 2))) (.mul (.num 56 1) (.pow (.var 1) 4))) (.mul (.num 16 1) (.pow (.var 1) 6))))),
  .neg (.div (.mul (.sqrt (.num 3 1)) (.add (.add (.neg (.num 3 1)) (.var 1)) (.mul (.num 2 1) (.pow (.var 1) 2)))) (.mul (.var 1) (.sqrt (.add (.add (.sub (.sub (.neg (.num 3 1)) (.mul (.num 8 1) (.var 1))) (.pow (.var 1) 2)) (.mul (.num 8 1) (.pow (.var 1) 3))) (.mul (.num 4 1) (.pow (.var 1) 4)))))),
  .neg (.mul (.mul (.sqrt (.num 6 1)) (.sqrt (.add (.num 1 1) (.var 0)))) (.add (.add (.add (.add (.add (.mul (.mul (.mul (.num 2 1) (.var 1)) (.add (.neg (.num 1 1)) (.mul (.num 2 1) (.var 1)))) (.sqrt (.div (.num 1 1) (.mul (.mul (.mul (.add (.num 1 1) (.var 0)) (.pow (.add (.num 3 1) (.mul (.num 2 1) (.var 0))) 2)) (.add (.var 1) (.mul (.num 2 1) (.pow (.var 1) 2)))) (.pow (.add (.add (.num 3 1) (.mul (.num 5 1) (.var 1))) (.mul (.num 2 1) (.pow (.var 1) 2))) 3))))) (.div (.add (.num 6 1) (.mul (.num 12 1) (.var 0))) (.mul (.mul (.add (.num 3 1) (.mul (.num 2 1) (.var 0))) (.sqrt (.mul (.mul (.add (.num 1 1) (.var 0)) (.var 1)) (.add (.num 1 1) (.mul (.num 2 1) (.var 1)))))) (.hpow (.add (.add (.num 3 1) (.mul (.num 5 1) (.var 1))) (.mul (.num 2 1) (.pow (.var 1) 2))) 1)))) (.div (.mul (.mul (.num 3 1) (.add (.num 1 1) (.mul (.num 2 1) (.var 0)))) (.add (.neg (.num 1 1)) (.mul (.num 2 1) (.var 1)))) (.mul (.mul (.add (.num 3 1) (.mul (.num 2 1) (.var 0))) (.sqrt (.mul (.mul (.add (.num 1 1) (.var 0)) (.var 1)) (.add (.num 1 1) (.mul (.num 2 1) (.var 1)))))) (.hpow (.add (.add (.num 3 1) (.mul (.num 5 1) (.var 1))) (.mul (.num 2 1) (.pow (.var 1) 2))) 1)))) (.div (.num 12 1) (.mul (.mul (.add (.num 3 1) (.mul (.num 2 1) (.var 0))) (.add (.add (.num 3 1) (.mul (.num 5 1) (.var 1))) (.mul (.num 2 1) (.pow (.var 1) 2)))) (.sqrt (.mul (.mul (.add (.num 1 1) (.var 0)) (.var 1)) (.add (.add (.add (.num 3 1) (.mul (.num 11 1) (.var 1))) (.mul (.num 12 1) (.pow (.var 1) 2))) (.mul (.num 4 1) (.pow (.var 1) 3)))))))) (.div (.mul (.num 6 1) (.hpow (.add (.neg (.num 1 1)) (.mul (.num 2 1) (.var 1))) 1)) (.mul (.mul (.add (.num 3 1) (.mul (.num 2 1) (.var 0))) (.add (.add (.num 3 1) (.mul (.num 5 1) (.var 1))) (.mul (.num 2 1) (.pow (.var 1) 2)))) (.sqrt (.mul (.mul (.add (.num 1 1) (.var 0)) (.var 1)) (.add (.add (.add (.sub (.neg (.num 3 1)) (.mul (.num 5 1) (.var 1))) (.mul (.num 10 1) (.pow (.var 1) 2))) (.mul (.num 20 1) (.pow (.var 1) 3))) (.mul (.num 8 1) (.pow (.var 1) 4)))))))) (.div (.mul (.mul (.add (.num 1 1) (.mul (.num 2 1) (.var 0))) (.var 1)) (.hpow (.add (.neg (.num 1 1)) (.mul (.num 2 1) (.var 1))) 1)) (.mul (.mul (.add (.num 3 1) (.mul (.num 2 1) (.var 0))) (.add (.add (.num 3 1) (.mul (.num 5 1) (.var 1))) (.mul (.num 2 1) (.pow (.var 1) 2)))) (.sqrt (.mul (.mul (.add (.num 1 1) (.var 0)) (.var 1)) (.add (.add (.add (.sub (.neg (.num 3 1)) (.mul (.num 5 1) (.var 1))) (.mul (.num 10 1) (.pow (.var 1) 2))) (.mul (.num 20 1) (.pow (.var 1) 3))) (.mul (.num 8 1) (.pow (.var 1) 4))))))))),
  .div (.mul (.sqrt (.add (.num 1 1) (.var 0))) (.add (.sub (.sub (.sub (.add (.sub (.add (.mul (.mul (.mul (.num 3 1) (.add (.neg (.num 1 1)) (.var 1))) (.var 1)) (.sqrt (.div (.add (.neg (.num 2 1)) (.mul (.num 4 1) (.var 1))) (.mul (.mul (.mul (.mul (.add (.num 1 1) (.var 0)) (.add (.neg (.num 1 1)) (.var 1))) (.var 1)) (.pow (.add (.num 1 1) (.var 1)) 3)) (.add (.add (.num 6 1) (.mul (.num 7 1) (.var 1))) (.mul (.num 2 1) (.pow (.var 1) 2))))))) (.div (.mul (.add (.neg (.num 1 1)) (.var 1)) (.var 1)) (.sqrt (.div (.mul (.mul (.mul (.add (.num 1 1) (.var 0)) (.var 1)) (.add (.neg (.num 1 1)) (.pow (.var 1) 2))) (.add (.add (.num 6 1) (.mul (.num 7 1) (.var 1))) (.mul (.num 2 1) (.pow (.var 1) 2)))) (.add (.neg (.num 2 1)) (.mul (.num 4 1) (.var 1))))))) (.div (.mul (.mul (.mul (.num 2 1) (.var 0)) (.add (.neg (.num 1 1)) (.var 1))) (.var 1)) (.mul (.add (.num 1 1) (.mul (.num 2 1) (.var 0))) (.sqrt (.div (.mul (.mul (.mul (.add (.num 1 1) (.var 0)) (.var 1)) (.add (.neg (.num 1 1)) (.pow (.var 1) 2))) (.add (.add (.num 6 1) (.mul (.num 7 1) (.var 1))) (.mul (.num 2 1) (.pow (.var 1) 2)))) (.add (.neg (.num 2 1)) (.mul (.num 4 1) (.var 1)))))))) (.div (.mul (.num 6 1) (.sqrt (.div (.add (.sub (.num 2 1) (.mul (.num 6 1) (.var 1))) (.mul (.num 4 1) (.pow (.var 1) 2))) (.mul (.mul (.mul (.mul (.add (.num 1 1) (.var 0)) (.var 1)) (.add (.num 1 1) (.var 1))) (.pow (.add (.num 1 1) (.mul (.num 2 1) (.var 1))) 2)) (.add (.add (.num 6 1) (.mul (.num 7 1) (.var 1))) (.mul (.num 2 1) (.pow (.var 1) 2))))))) (.add (.num 1 1) (.var 1)))) (.mul (.mul (.mul (.mul (.num 6 1) (.sqrt (.num 2 1))) (.add (.neg (.num 1 1)) (.var 1))) (.var 1)) (.sqrt (.div (.mul (.pow (.var 0) 2) (.add (.neg (.num 1 1)) (.mul (.num 2 1) (.var 1)))) (.mul (.mul (.mul (.mul (.add (.num 1 1) (.var 0)) (.pow (.add (.num 1 1) (.mul (.num 2 1) (.var 0))) 2)) (.var 1)) (.pow (.add (.num 1 1) (.var 1)) 3)) (.add (.add (.sub (.neg (.num 6 1)) (.var 1)) (.mul (.num 5 1) (.pow (.var 1) 2))) (.mul (.num 2 1) (.pow (.var 1) 3)))))))) (.div (.mul (.mul (.num 12 1) (.var 0)) (.sqrt (.add (.add (.neg (.num 6 1)) (.div (.num 2 1) (.var 1))) (.mul (.num 4 1) (.var 1))))) (.mul (.mul (.add (.num 1 1) (.mul (.num 2 1) (.var 0))) (.add (.add (.num 1 1) (.mul (.num 3 1) (.var 1))) (.mul (.num 2 1) (.pow (.var 1) 2)))) (.sqrt (.mul (.add (.num 1 1) (.var 0)) (.add (.add (.add (.num 6 1) (.mul (.num 13 1) (.var 1))) (.mul (.num 9 1) (.pow (.var 1) 2))) (.mul (.num 2 1) (.pow (.var 1) 3)))))))) (.div (.mul (.mul (.mul (.num 18 1) (.var 0)) (.var 1)) (.sqrt (.mul (.add (.neg (.num 1 1)) (.var 1)) (.add (.neg (.num 2 1)) (.mul (.num 4 1) (.var 1)))))) (.mul (.mul (.add (.num 1 1) (.mul (.num 2 1) (.var 0))) (.add (.add (.num 1 1) (.mul (.num 3 1) (.var 1))) (.mul (.num 2 1) (.pow (.var 1) 2)))) (.sqrt (.mul (.mul (.add (.num 1 1) (.var 0)) (.var 1)) (.add (.add (.add (.num 6 1) (.mul (.num 13 1) (.var 1))) (.mul (.num 9 1) (.pow (.var 1) 2))) (.mul (.num 2 1) (.pow (.var 1) 3)))))))) (.div (.mul (.mul (.mul (.num 9 1) (.sqrt (.num 2 1))) (.add (.neg (.num 1 1)) (.var 1))) (.sqrt (.div (.mul (.var 1) (.add (.neg (.num 1 1)) (.mul (.num 2 1) (.var 1)))) (.mul (.mul (.add (.num 1 1) (.var 0)) (.pow (.add (.num 1 1) (.mul (.num 2 1) (.var 1))) 2)) (.add (.add (.add (.sub (.neg (.num 6 1)) (.mul (.num 7 1) (.var 1))) (.mul (.num 4 1) (.pow (.var 1) 2))) (.mul (.num 7 1) (.pow (.var 1) 3))) (.mul (.num 2 1) (.pow (.var 1) 4))))))) (.add (.num 1 1) (.var 1))))) (.sqrt (.num 2 1)),
  .neg (.div (.mul (.mul (.mul (.sqrt (.num 2 1)) (.var 1)) (.sqrt (.mul (.add (.num 1 1) (.mul (.num 2 1) (.var 0))) (.add (.num 1 1) (.mul (.num 2 1) (.var 1)))))) (.sub (.add (.sub (.add (.sub (.add (.sub (.div (.mul (.mul (.mul (.mul (.mul (.num 2 1) (.var 0)) (.pow (.add (.num 1 1) (.var 0)) 2)) (.pow (.var 1) 2)) (.sqrt (.add (.neg (.num 1 1)) (.mul (.num 2 1) (.var 1))))) (.pow (.add (.num 3 1) (.mul (.num 2 1) (.var 1))) 2)) (.hpow (.div (.add (.num 1 1) (.mul (.num 2 1) (.var 0))) (.add (.add (.num 2 1) (.mul (.num 3 1) (.var 1))) (.pow (.var 1) 2))) 1)) (.div (.mul (.mul (.mul (.pow (.add (.num 1 1) (.var 0)) 2) (.pow (.var 1) 2)) (.pow (.add (.num 3 1) (.mul (.num 2 1) (.var 1))) 2)) (.hpow (.add (.add (.num 2 1) (.mul (.num 3 1) (.var 1))) (.pow (.var 1) 2)) 1)) (.sqrt (.div (.add (.num 1 1) (.mul (.num 2 1) (.var 0))) (.add (.neg (.num 1 1)) (.mul (.num 2 1) (.var 1))))))) (.mul (.num 6 1) (.sqrt (.div (.mul (.mul (.mul (.mul (.mul (.pow (.var 0) 2) (.pow (.add (.num 1 1) (.var 0)) 4)) (.pow (.var 1) 4)) (.pow (.add (.num 2 1) (.var 1)) 3)) (.pow (.add (.num 3 1) (.mul (.num 2 1) (.var 1))) 4)) (.add (.add (.neg (.num 1 1)) (.var 1)) (.mul (.num 2 1) (.pow (.var 1) 2)))) (.pow (.add (.num 1 1) (.mul (.num 2 1) (.var 0))) 3))))) (.mul (.num 3 1) (.sqrt (.div (.mul (.mul (.mul (.mul (.pow (.add (.num 1 1) (.var 0)) 4) (.pow (.var 1) 4)) (.pow (.add (.num 2 1) (.var 1)) 3)) (.pow (.add (.num 3 1) (.mul (.num 2 1) (.var 1))) 4)) (.add (.add (.neg (.num 1 1)) (.var 1)) (.mul (.num 2 1) (.pow (.var 1) 2)))) (.add (.num 1 1) (.mul (.num 2 1) (.var 0))))))) (.mul (.num 18 1) (.sqrt (.div (.mul (.mul (.mul (.mul (.mul (.pow (.var 0) 2) (.pow (.add (.num 1 1) (.var 0)) 4)) (.pow (.var 1) 4)) (.pow (.add (.num 2 1) (.var 1)) 3)) (.pow (.add (.num 3 1) (.mul (.num 2 1) (.var 1))) 4)) (.add (.add (.neg (.num 1 1)) (.var 1)) (.mul (.num 2 1) (.pow (.var 1) 2)))) (.mul (.pow (.add (.num 1 1) (.mul (.num 2 1) (.var 0))) 3) (.pow (.add (.num 1 1) (.mul (.num 2 1) (.var 1))) 2)))))) (.mul (.num 9 1) (.sqrt (.div (.mul (.mul (.mul (.mul (.pow (.add (.num 1 1) (.var 0)) 4) (.pow (.var 1) 4)) (.pow (.add (.num 2 1) (.var 1)) 3)) (.pow (.add (.num 3 1) (.mul (.num 2 1) (.var 1))) 4)) (.add (.add (.neg (.num 1 1)) (.var 1)) (.mul (.num 2 1) (.pow (.var 1) 2)))) (.mul (.add (.num 1 1) (.mul (.num 2 1) (.var 0))) (.pow (.add (.num 1 1) (.mul (.num 2 1) (.var 1))) 2)))))) (.div (.mul (.mul (.mul (.mul (.mul (.mul (.num 12 1) (.var 0)) (.pow (.add (.num 1 1) (.var 0)) 2)) (.var 1)) (.add (.num 1 1) (.var 1))) (.sqrt (.div (.add (.neg (.num 1 1)) (.mul (.num 2 1) (.var 1))) (.add (.add (.num 2 1) (.mul (.num 3 1) (.var 1))) (.pow (.var 1) 2))))) (.pow (.add (.add (.num 6 1) (.mul (.num 7 1) (.var 1))) (.mul (.num 2 1) (.pow (.var 1) 2))) 2)) (.mul (.hpow (.add (.num 1 1) (.mul (.num 2 1) (.var 0))) 1) (.add (.num 1 1) (.mul (.num 2 1) (.var 1)))))) (.div (.mul (.mul (.mul (.mul (.num 6 1) (.pow (.add (.num 1 1) (.var 0)) 2)) (.var 1)) (.add (.num 1 1) (.var 1))) (.pow (.add (.add (.num 6 1) (.mul (.num 7 1) (.var 1))) (.mul (.num 2 1) (.pow (.var 1) 2))) 2)) (.mul (.add (.num 1 1) (.mul (.num 2 1) (.var 1))) (.sqrt (.div (.mul (.add (.num 1 1) (.mul (.num 2 1) (.var 0))) (.add (.add (.num 2 1) (.mul (.num 3 1) (.var 1))) (.pow (.var 1) 2))) (.add (.neg (.num 1 1)) (.mul (.num 2 1) (.var 1))))))))) (.mul (.mul (.mul (.pow (.add (.num 1 1) (.var 0)) 2) (.pow (.add (.num 1 1) (.var 1)) 2)) (.hpow (.mul (.var 1) (.add (.num 2 1) (.var 1))) 2)) (.pow (.add (.num 3 1) (.mul (.num 2 1) (.var 1))) 3))),
  .neg (.div (.mul (.sqrt (.add (.num 1 1) (.var 0))) (.add (.add (.add (.add (.add (.add (.add (.mul (.mul (.mul (.sqrt (.num 2 1)) (.add (.neg (.num 1 1)) (.var 1))) (.var 1)) (.sqrt (.div (.mul (.pow (.add (.num 1 1) (.mul (.num 2 1) (.var 0))) 2) (.add (.neg (.num 1 1)) (.mul (.num 2 1) (.var 1)))) (.mul (.mul (.mul (.mul (.add (.num 1 1) (.var 0)) (.pow (.add (.num 3 1) (.mul (.num 2 1) (.var 0))) 2)) (.var 1)) (.add (.neg (.num 1 1)) (.pow (.var 1) 2))) (.add (.add (.num 6 1) (.mul (.num 7 1) (.var 1))) (.mul (.num 2 1) (.pow (.var 1) 2))))))) (.div (.mul (.mul (.num 2 1) (.add (.neg (.num 1 1)) (.var 1))) (.var 1)) (.sqrt (.div (.mul (.mul (.mul (.mul (.add (.num 1 1) (.var 0)) (.pow (.add (.num 3 1) (.mul (.num 2 1) (.var 0))) 2)) (.var 1)) (.add (.neg (.num 1 1)) (.pow (.var 1) 2))) (.add (.add (.num 6 1) (.mul (.num 7 1) (.var 1))) (.mul (.num 2 1) (.pow (.var 1) 2)))) (.add (.neg (.num 2 1)) (.mul (.num 4 1) (.var 1))))))) (.div (.mul (.mul (.num 6 1) (.add (.num 1 1) (.mul (.num 2 1) (.var 0)))) (.sqrt (.div (.add (.sub (.num 2 1) (.mul (.num 6 1) (.var 1))) (.mul (.num 4 1) (.pow (.var 1) 2))) (.mul (.mul (.mul (.mul (.add (.num 1 1) (.var 0)) (.var 1)) (.add (.num 1 1) (.var 1))) (.pow (.add (.num 1 1) (.mul (.num 2 1) (.var 1))) 2)) (.add (.add (.num 6 1) (.mul (.num 7 1) (.var 1))) (.mul (.num 2 1) (.pow (.var 1) 2))))))) (.mul (.add (.num 3 1) (.mul (.num 2 1) (.var 0))) (.add (.num 1 1) (.var 1))))) (.div (.mul (.num 12 1) (.sqrt (.div (.add (.sub (.num 2 1) (.mul (.num 6 1) (.var 1))) (.mul (.num 4 1) (.pow (.var 1) 2))) (.mul (.mul (.mul (.mul (.mul (.add (.num 1 1) (.var 0)) (.pow (.add (.num 3 1) (.mul (.num 2 1) (.var 0))) 2)) (.var 1)) (.add (.num 1 1) (.var 1))) (.pow (.add (.num 1 1) (.mul (.num 2 1) (.var 1))) 2)) (.add (.add (.num 6 1) (.mul (.num 7 1) (.var 1))) (.mul (.num 2 1) (.pow (.var 1) 2))))))) (.add (.num 1 1) (.var 1)))) (.mul (.mul (.mul (.mul (.num 3 1) (.sqrt (.num 2 1))) (.add (.neg (.num 1 1)) (.var 1))) (.var 1)) (.sqrt (.div (.mul (.pow (.add (.num 1 1) (.mul (.num 2 1) (.var 0))) 2) (.add (.neg (.num 1 1)) (.mul (.num 2 1) (.var 1)))) (.mul (.mul (.mul (.mul (.add (.num 1 1) (.var 0)) (.pow (.add (.num 3 1) (.mul (.num 2 1) (.var 0))) 2)) (.var 1)) (.pow (.add (.num 1 1) (.var 1)) 3)) (.add (.add (.sub (.neg (.num 6 1)) (.var 1)) (.mul (.num 5 1) (.pow (.var 1) 2))) (.mul (.num 2 1) (.pow (.var 1) 3)))))))) (.div (.mul (.mul (.num 6 1) (.add (.neg (.num 1 1)) (.var 1))) (.var 1)) (.sqrt (.div (.mul (.mul (.mul (.mul (.add (.num 1 1) (.var 0)) (.pow (.add (.num 3 1) (.mul (.num 2 1) (.var 0))) 2)) (.var 1)) (.pow (.add (.num 1 1) (.var 1)) 3)) (.add (.add (.sub (.neg (.num 6 1)) (.var 1)) (.mul (.num 5 1) (.pow (.var 1) 2))) (.mul (.num 2 1) (.pow (.var 1) 3)))) (.add (.neg (.num 2 1)) (.mul (.num 4 1) (.var 1))))))) (.div (.mul (.mul (.mul (.num 9 1) (.add (.num 1 1) (.mul (.num 2 1) (.var 0)))) (.var 1)) (.sqrt (.div (.add (.sub (.num 2 1) (.mul (.num 6 1) (.var 1))) (.mul (.num 4 1) (.pow (.var 1) 2))) (.mul (.mul (.add (.num 1 1) (.var 0)) (.var 1)) (.add (.add (.add (.num 6 1) (.mul (.num 13 1) (.var 1))) (.mul (.num 9 1) (.pow (.var 1) 2))) (.mul (.num 2 1) (.pow (.var 1) 3))))))) (.mul (.add (.num 3 1) (.mul (.num 2 1) (.var 0))) (.add (.add (.num 1 1) (.mul (.num 3 1) (.var 1))) (.mul (.num 2 1) (.pow (.var 1) 2)))))) (.div (.mul (.mul (.mul (.num 18 1) (.sqrt (.num 2 1))) (.add (.neg (.num 1 1)) (.var 1))) (.sqrt (.div (.mul (.var 1) (.add (.neg (.num 1 1)) (.mul (.num 2 1) (.var 1)))) (.mul (.mul (.mul (.add (.num 1 1) (.var 0)) (.pow (.add (.num 3 1) (.mul (.num 2 1) (.var 0))) 2)) (.pow (.add (.num 1 1) (.mul (.num 2 1) (.var 1))) 2)) (.add (.add (.add (.sub (.neg (.num 6 1)) (.mul (.num 7 1) (.var 1))) (.mul (.num 4 1) (.pow (.var 1) 2))) (.mul (.num 7 1) (.pow (.var 1) 3))) (.mul (.num 2 1) (.pow (.var 1) 4))))))) (.add (.num 1 1) (.var 1))))) (.sqrt (.num 2 1))),
  .neg (.div (.num 1 1) (.mul (.add (.num 1 1) (.mul (.num 2 1) (.var 1))) (.sqrt (.div (.mul (.var 1) (.add (.num 1 1) (.var 1))) (.add (.neg (.num 2 1)) (.mul (.num 8 1) (.pow (.var 1) 2))))))),
  .neg (.div (.sub (.add (.add (.add (.sub (.add (.sub (.sub (.add (.mul (.mul (.neg (.num 6 1)) (.sqrt (.num 2 1))) (.sqrt (.div (.mul (.mul (.mul (.mul (.add (.num 1 1) (.var 0)) (.add (.num 1 1) (.mul (.num 2 1) (.var 0)))) (.var 1)) (.add (.neg (.num 1 1)) (.mul (.num 2 1) (.var 1)))) (.add (.num 5 1) (.mul (.num 2 1) (.var 1)))) (.mul (.add (.num 1 1) (.mul (.num 2 1) (.var 1))) (.add (.add (.num 6 1) (.mul (.num 7 1) (.var 1))) (.mul (.num 2 1) (.pow (.var 1) 2))))))) (.mul (.mul (.mul (.mul (.num 12 1) (.sqrt (.num 2 1))) (.var 0)) (.add (.num 1 1) (.var 1))) (.sqrt (.div (.mul (.mul (.mul (.mul (.add (.num 1 1) (.var 0)) (.var 1)) (.add (.neg (.num 1 1)) (.mul (.num 2 1) (.var 1)))) (.add (.num 1 1) (.mul (.num 2 1) (.var 1)))) (.add (.num 5 1) (.mul (.num 2 1) (.var 1)))) (.mul (.add (.num 1 1) (.mul (.num 2 1) (.var 0))) (.add (.add (.num 6 1) (.mul (.num 7 1) (.var 1))) (.mul (.num 2 1) (.pow (.var 1) 2)))))))) (.mul (.mul (.num 6 1) (.sqrt (.num 2 1))) (.sqrt (.div (.mul (.mul (.mul (.mul (.mul (.add (.num 1 1) (.var 0)) (.add (.num 1 1) (.mul (.num 2 1) (.var 0)))) (.var 1)) (.add (.neg (.num 1 1)) (.mul (.num 2 1) (.var 1)))) (.add (.num 1 1) (.mul (.num 2 1) (.var 1)))) (.add (.num 5 1) (.mul (.num 2 1) (.var 1)))) (.add (.add (.num 6 1) (.mul (.num 7 1) (.var 1))) (.mul (.num 2 1) (.pow (.var 1) 2))))))) (.mul (.mul (.mul (.num 6 1) (.sqrt (.num 2 1))) (.add (.num 1 1) (.var 1))) (.sqrt (.div (.mul (.mul (.mul (.mul (.mul (.add (.num 1 1) (.var 0)) (.add (.num 1 1) (.mul (.num 2 1) (.var 0)))) (.var 1)) (.add (.neg (.num 1 1)) (.mul (.num 2 1) (.var 1)))) (.add (.num 1 1) (.mul (.num 2 1) (.var 1)))) (.add (.num 5 1) (.mul (.num 2 1) (.var 1)))) (.add (.add (.num 6 1) (.mul (.num 7 1) (.var 1))) (.mul (.num 2 1) (.pow (.var 1) 2))))))) (.mul (.mul (.mul (.mul (.num 4 1) (.sqrt (.num 2 1))) (.var 0)) (.add (.num 1 1) (.var 1))) (.sqrt (.div (.mul (.mul (.mul (.mul (.add (.num 1 1) (.var 0)) (.var 1)) (.add (.neg (.num 1 1)) (.mul (.num 2 1) (.var 1)))) (.add (.num 1 1) (.mul (.num 2 1) (.var 1)))) (.add (.add (.num 15 1) (.mul (.num 16 1) (.var 1))) (.mul (.num 4 1) (.pow (.var 1) 2)))) (.mul (.add (.num 1 1) (.mul (.num 2 1) (.var 0))) (.add (.num 2 1) (.var 1))))))) (.mul (.mul (.mul (.num 2 1) (.sqrt (.num 2 1))) (.add (.num 1 1) (.var 1))) (.sqrt (.div (.mul (.mul (.mul (.mul (.mul (.add (.num 1 1) (.var 0)) (.add (.num 1 1) (.mul (.num 2 1) (.var 0)))) (.var 1)) (.add (.neg (.num 1 1)) (.mul (.num 2 1) (.var 1)))) (.add (.num 1 1) (.mul (.num 2 1) (.var 1)))) (.add (.add (.num 15 1) (.mul (.num 16 1) (.var 1))) (.mul (.num 4 1) (.pow (.var 1) 2)))) (.add (.num 2 1) (.var 1)))))) (.mul (.mul (.mul (.num 12 1) (.sqrt (.num 2 1))) (.var 0)) (.sqrt (.div (.mul (.mul (.add (.num 1 1) (.var 0)) (.var 1)) (.add (.add (.neg (.num 5 1)) (.mul (.num 8 1) (.var 1))) (.mul (.num 4 1) (.pow (.var 1) 2)))) (.mul (.add (.num 1 1) (.mul (.num 2 1) (.var 0))) (.add (.add (.add (.num 6 1) (.mul (.num 19 1) (.var 1))) (.mul (.num 16 1) (.pow (.var 1) 2))) (.mul (.num 4 1) (.pow (.var 1) 3)))))))) (.mul (.mul (.mul (.mul (.num 2 1) (.sqrt (.num 2 1))) (.var 0)) (.add (.num 1 1) (.var 1))) (.sqrt (.div (.mul (.mul (.mul (.mul (.add (.num 1 1) (.var 0)) (.var 1)) (.add (.neg (.num 1 1)) (.mul (.num 2 1) (.var 1)))) (.add (.num 1 1) (.mul (.num 2 1) (.var 1)))) (.add (.add (.add (.num 30 1) (.mul (.num 47 1) (.var 1))) (.mul (.num 24 1) (.pow (.var 1) 2))) (.mul (.num 4 1) (.pow (.var 1) 3)))) (.add (.num 1 1) (.mul (.num 2 1) (.var 0))))))) (.mul (.mul (.mul (.num 12 1) (.sqrt (.num 2 1))) (.var 0)) (.sqrt (.div (.mul (.mul (.add (.num 1 1) (.var 0)) (.var 1)) (.add (.add (.sub (.neg (.num 5 1)) (.mul (.num 2 1) (.var 1))) (.mul (.num 20 1) (.pow (.var 1) 2))) (.mul (.num 8 1) (.pow (.var 1) 3)))) (.mul (.add (.num 1 1) (.mul (.num 2 1) (.var 0))) (.add (.add (.num 6 1) (.mul (.num 7 1) (.var 1))) (.mul (.num 2 1) (.pow (.var 1) 2)))))))) (.mul (.sqrt (.num 2 1)) (.sqrt (.mul (.mul (.mul (.mul (.mul (.add (.num 1 1) (.var 0)) (.add (.num 1 1) (.mul (.num 2 1) (.var 0)))) (.var 1)) (.add (.neg (.num 1 1)) (.mul (.num 2 1) (.var 1)))) (.add (.add (.num 1 1) (.mul (.num 3 1) (.var 1))) (.mul (.num 2 1) (.pow (.var 1) 2)))) (.add (.add (.add (.add (.num 30 1) (.mul (.num 77 1) (.var 1))) (.mul (.num 71 1) (.pow (.var 1) 2))) (.mul (.num 28 1) (.pow (.var 1) 3))) (.mul (.num 4 1) (.pow (.var 1) 4))))))) (.mul (.mul (.sqrt (.num 2 1)) (.sqrt (.mul (.mul (.mul (.add (.num 1 1) (.var 0)) (.add (.num 1 1) (.mul (.num 2 1) (.var 0)))) (.var 1)) (.add (.num 2 1) (.var 1))))) (.add (.add (.add (.num 15 1) (.mul (.num 31 1) (.var 1))) (.mul (.num 20 1) (.pow (.var 1) 2))) (.mul (.num 4 1) (.pow (.var 1) 3))))),
  .neg (.div (.mul (.add (.num 3 1) (.mul (.num 2 1) (.var 0))) (.add (.add (.add (.add (.mul (.num 6 1) (.sqrt (.div (.mul (.mul (.add (.num 1 1) (.var 0)) (.var 1)) (.add (.add (.neg (.num 5 1)) (.mul (.num 8 1) (.var 1))) (.mul (.num 4 1) (.pow (.var 1) 2)))) (.mul (.add (.num 3 1) (.mul (.num 2 1) (.var 0))) (.add (.add (.add (.num 6 1) (.mul (.num 19 1) (.var 1))) (.mul (.num 16 1) (.pow (.var 1) 2))) (.mul (.num 4 1) (.pow (.var 1) 3))))))) (.mul (.num 12 1) (.sqrt (.div (.mul (.mul (.add (.num 1 1) (.var 0)) (.var 1)) (.add (.add (.sub (.neg (.num 5 1)) (.mul (.num 2 1) (.var 1))) (.mul (.num 20 1) (.pow (.var 1) 2))) (.mul (.num 8 1) (.pow (.var 1) 3)))) (.mul (.add (.num 3 1) (.mul (.num 2 1) (.var 0))) (.add (.add (.num 6 1) (.mul (.num 7 1) (.var 1))) (.mul (.num 2 1) (.pow (.var 1) 2)))))))) (.mul (.num 2 1) (.sqrt (.div (.mul (.mul (.add (.num 1 1) (.var 0)) (.var 1)) (.add (.add (.add (.sub (.neg (.num 15 1)) (.mul (.num 16 1) (.var 1))) (.mul (.num 56 1) (.pow (.var 1) 2))) (.mul (.num 64 1) (.pow (.var 1) 3))) (.mul (.num 16 1) (.pow (.var 1) 4)))) (.mul (.add (.num 3 1) (.mul (.num 2 1) (.var 0))) (.add (.num 2 1) (.var 1))))))) (.sqrt (.div (.mul (.mul (.add (.num 1 1) (.var 0)) (.var 1)) (.add (.add (.add (.add (.sub (.neg (.num 30 1)) (.mul (.num 47 1) (.var 1))) (.mul (.num 96 1) (.pow (.var 1) 2))) (.mul (.num 184 1) (.pow (.var 1) 3))) (.mul (.num 96 1) (.pow (.var 1) 4))) (.mul (.num 16 1) (.pow (.var 1) 5)))) (.add (.num 3 1) (.mul (.num 2 1) (.var 0)))))) (.mul (.var 1) (.add (.add (.mul (.num 6 1) (.sqrt (.div (.mul (.mul (.add (.num 1 1) (.var 0)) (.var 1)) (.add (.add (.sub (.neg (.num 5 1)) (.mul (.num 2 1) (.var 1))) (.mul (.num 20 1) (.pow (.var 1) 2))) (.mul (.num 8 1) (.pow (.var 1) 3)))) (.mul (.add (.num 3 1) (.mul (.num 2 1) (.var 0))) (.add (.add (.num 6 1) (.mul (.num 7 1) (.var 1))) (.mul (.num 2 1) (.pow (.var 1) 2))))))) (.mul (.num 2 1) (.sqrt (.div (.mul (.mul (.add (.num 1 1) (.var 0)) (.var 1)) (.add (.add (.add (.sub (.neg (.num 15 1)) (.mul (.num 16 1) (.var 1))) (.mul (.num 56 1) (.pow (.var 1) 2))) (.mul (.num 64 1) (.pow (.var 1) 3))) (.mul (.num 16 1) (.pow (.var 1) 4)))) (.mul (.add (.num 3 1) (.mul (.num 2 1) (.var 0))) (.add (.num 2 1) (.var 1))))))) (.sqrt (.div (.mul (.mul (.add (.num 1 1) (.var 0)) (.var 1)) (.add (.add (.add (.add (.sub (.neg (.num 30 1)) (.mul (.num 47 1) (.var 1))) (.mul (.num 96 1) (.pow (.var 1) 2))) (.mul (.num 184 1) (.pow (.var 1) 3))) (.mul (.num 96 1) (.pow (.var 1) 4))) (.mul (.num 16 1) (.pow (.var 1) 5)))) (.add (.num 3 1) (.mul (.num 2 1) (.var 0))))))))) (.mul (.sqrt (.mul (.mul (.add (.add (.num 3 1) (.mul (.num 5 1) (.var 0))) (.mul (.num 2 1) (.pow (.var 0) 2))) (.var 1)) (.add (.num 2 1) (.var 1)))) (.add (.add (.add (.num 15 1) (.mul (.num 31 1) (.var 1))) (.mul (.num 20 1) (.pow (.var 1) 2))) (.mul (.num 4 1) (.pow (.var 1) 3))))),
  .sqrt (.div (.add (.add (.neg (.num 1 1)) (.var 0)) (.mul (.num 2 1) (.pow (.var 0) 2))) (.mul (.var 0) (.add (.num 1 1) (.mul (.num 2 1) (.var 0))))),
  .sqrt (.div (.add (.add (.neg (.num 1 1)) (.var 0)) (.mul (.num 2 1) (.pow (.var 0) 2))) (.mul (.add (.var 0) (.mul (.num 2 1) (.pow (.var 0) 2))) (.pow (.var 1) 2))),
  .div (.sqrt (.div (.add (.add (.neg (.num 1 1)) (.var 0)) (.mul (.num 2 1) (.pow (.var 0) 2))) (.mul (.var 0) (.add (.num 1 1) (.mul (.num 2 1) (.var 0)))))) (.add (.var 1) (.mul (.num 2 1) (.pow (.var 1) 2))),
  .div (.add (.add (.neg (.sqrt (.div (.add (.neg (.num 1 1)) (.mul (.num 2 1) (.var 0))) (.mul (.add (.num 1 1) (.mul (.num 2 1) (.var 0))) (.add (.neg (.num 1 1)) (.var 1)))))) (.sqrt (.div (.mul (.add (.neg (.num 1 1)) (.mul (.num 2 1) (.var 0))) (.add (.neg (.num 1 1)) (.var 1))) (.mul (.add (.num 1 1) (.mul (.num 2 1) (.var 0))) (.pow (.var 1) 2))))) (.mul (.sqrt (.div (.add (.neg (.num 1 1)) (.mul (.num 2 1) (.var 0))) (.mul (.add (.num 1 1) (.mul (.num 2 1) (.var 0))) (.add (.neg (.num 1 1)) (.var 1))))) (.var 1))) (.sqrt (.div (.mul (.var 0) (.add (.num 1 1) (.var 1))) (.add (.num 1 1) (.var 0)))),
  .div (.sqrt (.div (.mul (.add (.add (.sub (.neg (.num 1 1)) (.var 0)) (.mul (.num 4 1) (.pow (.var 0) 2))) (.mul (.num 4 1) (.pow (.var 0) 3))) (.add (.neg (.num 1 1)) (.mul (.num 4 1) (.pow (.var 1) 2)))) (.var 0))) (.mul (.add (.num 1 1) (.mul (.num 2 1) (.var 0))) (.add (.var 1) (.mul (.num 2 1) (.pow (.var 1) 2)))),
  .div (.add (.add (.sqrt (.div (.mul (.add (.neg (.num 1 1)) (.mul (.num 2 1) (.var 0))) (.add (.neg (.num 1 1)) (.mul (.num 2 1) (.var 1)))) (.mul (.add (.num 1 1) (.mul (.num 2 1) (.var 0))) (.add (.num 1 1) (.var 1))))) (.sqrt (.div (.mul (.add (.neg (.num 1 1)) (.mul (.num 2 1) (.var 0))) (.add (.neg (.num 1 1)) (.mul (.num 2 1) (.var 1)))) (.mul (.mul (.add (.num 1 1) (.mul (.num 2 1) (.var 0))) (.add (.num 1 1) (.var 1))) (.pow (.add (.num 1 1) (.mul (.num 2 1) (.var 1))) 2))))) (.sqrt (.div (.mul (.add (.neg (.num 1 1)) (.mul (.num 2 1) (.var 0))) (.add (.add (.neg (.num 1 1)) (.var 1)) (.mul (.num 2 1) (.pow (.var 1) 2)))) (.add (.num 1 1) (.mul (.num 2 1) (.var 0)))))) (.sqrt (.div (.mul (.var 0) (.add (.add (.num 3 1) (.mul (.num 5 1) (.var 1))) (.mul (.num 2 1) (.pow (.var 1) 2)))) (.add (.num 1 1) (.var 0)))),
  .neg (.div (.num 1 1) (.sqrt (.mul (.var 0) (.add (.num 1 1) (.mul (.num 2 1) (.var 0)))))),
  .neg (.div (.num 1 1) (.mul (.sqrt (.mul (.var 0) (.add (.num 1 1) (.mul (.num 2 1) (.var 0))))) (.var 1))),
  .neg (.div (.num 1 1) (.mul (.mul (.sqrt (.mul (.var 0) (.add (.num 1 1) (.mul (.num 2 1) (.var 0))))) (.var 1)) (.add (.num 1 1) (.mul (.num 2 1) (.var 1))))),
  .div (.add (.num 3 1) (.mul (.num 2 1) (.var 0))) (.sqrt (.mul (.add (.num 1 1) (.div (.num 1 1) (.var 0))) (.add (.add (.num 3 1) (.mul (.num 8 1) (.var 0))) (.mul (.num 4 1) (.pow (.var 0) 2))))),
  .div (.add (.num 3 1) (.mul (.num 2 1) (.var 0))) (.sqrt (.div (.mul (.mul (.add (.num 1 1) (.var 0)) (.add (.add (.num 3 1) (.mul (.num 8 1) (.var 0))) (.mul (.num 4 1) (.pow (.var 0) 2)))) (.pow (.var 1) 2)) (.var 0))),
  .div (.add (.num 3 1) (.mul (.num 2 1) (.var 0))) (.sqrt (.div (.mul (.add (.add (.add (.num 3 1) (.mul (.num 11 1) (.var 0))) (.mul (.num 12 1) (.pow (.var 0) 2))) (.mul (.num 4 1) (.pow (.var 0) 3))) (.pow (.add (.var 1) (.mul (.num 2 1) (.pow (.var 1) 2))) 2)) (.var 0))),
  .neg (.div (.num 1 1) (.mul (.var 1) (.sqrt (.div (.mul (.var 0) (.add (.num 1 1) (.mul (.num 2 1) (.var 0)))) (.add (.neg (.num 1 1)) (.pow (.var 1) 2)))))),
  .neg (.div (.add (.add (.sub (.neg (.mul (.mul (.mul (.hpow (.add (.num 1 1) (.var 0)) 1) (.add (.neg (.num 1 1)) (.mul (.num 2 1) (.var 0)))) (.add (.num 1 1) (.var 1))) (.sqrt (.div (.mul (.var 1) (.add (.neg (.num 1 1)) (.mul (.num 2 1) (.var 1)))) (.var 0))))) (.mul (.mul (.mul (.mul (.hpow (.add (.num 1 1) (.var 0)) 1) (.add (.neg (.num 1 1)) (.mul (.num 2 1) (.var 0)))) (.var 1)) (.add (.num 1 1) (.var 1))) (.sqrt (.div (.mul (.var 1) (.add (.neg (.num 1 1)) (.mul (.num 2 1) (.var 1)))) (.var 0))))) (.mul (.mul (.num 2 1) (.var 1)) (.sqrt (.mul (.mul (.mul (.mul (.var 0) (.pow (.add (.num 1 1) (.var 0)) 3)) (.var 1)) (.pow (.add (.num 1 1) (.var 1)) 2)) (.add (.neg (.num 1 1)) (.mul (.num 2 1) (.var 1))))))) (.mul (.mul (.mul (.num 2 1) (.var 1)) (.hpow (.mul (.add (.num 1 1) (.var 0)) (.add (.num 1 1) (.var 1))) 1)) (.sqrt (.neg (.div (.sub (.var 0) (.mul (.mul (.num 2 1) (.var 0)) (.var 1))) (.add (.var 1) (.pow (.var 1) 2))))))) (.mul (.mul (.hpow (.mul (.add (.num 1 1) (.var 0)) (.var 1)) 1) (.pow (.add (.num 1 1) (.var 1)) 2)) (.sqrt (.mul (.add (.num 1 1) (.mul (.num 2 1) (.var 0))) (.add (.num 1 1) (.mul (.num 2 1) (.var 1))))))),
  .div (.sqrt (.div (.mul (.mul (.var 0) (.add (.add (.num 3 1) (.mul (.num 8 1) (.var 0))) (.mul (.num 4 1) (.pow (.var 0) 2)))) (.add (.neg (.num 1 1)) (.pow (.var 1) 2))) (.add (.num 1 1) (.var 0)))) (.add (.var 1) (.mul (.mul (.num 2 1) (.var 0)) (.var 1))),
  .div (.add (.add (.add (.neg (.mul (.var 0) (.sqrt (.div (.add (.neg (.num 1 1)) (.mul (.num 2 1) (.var 1))) (.mul (.mul (.var 0) (.add (.add (.num 3 1) (.mul (.num 8 1) (.var 0))) (.mul (.num 4 1) (.pow (.var 0) 2)))) (.add (.num 1 1) (.mul (.num 2 1) (.var 1)))))))) (.mul (.mul (.num 2 1) (.pow (.var 0) 2)) (.sqrt (.div (.add (.neg (.num 1 1)) (.mul (.num 2 1) (.var 1))) (.mul (.mul (.var 0) (.add (.add (.num 3 1) (.mul (.num 8 1) (.var 0))) (.mul (.num 4 1) (.pow (.var 0) 2)))) (.add (.num 1 1) (.mul (.num 2 1) (.var 1)))))))) (.mul (.num 4 1) (.sqrt (.div (.mul (.var 0) (.add (.neg (.num 1 1)) (.mul (.num 2 1) (.var 1)))) (.mul (.add (.add (.num 3 1) (.mul (.num 8 1) (.var 0))) (.mul (.num 4 1) (.pow (.var 0) 2))) (.add (.num 1 1) (.mul (.num 2 1) (.var 1)))))))) (.mul (.mul (.add (.num 3 1) (.mul (.num 2 1) (.var 0))) (.var 1)) (.sqrt (.div (.mul (.var 0) (.add (.neg (.num 1 1)) (.mul (.num 2 1) (.var 1)))) (.mul (.add (.add (.num 3 1) (.mul (.num 8 1) (.var 0))) (.mul (.num 4 1) (.pow (.var 0) 2))) (.add (.num 1 1) (.mul (.num 2 1) (.var 1)))))))) (.mul (.mul (.sqrt (.add (.num 1 1) (.var 0))) (.var 1)) (.add (.num 1 1) (.var 1))),
  .neg (.div (.add (.add (.sqrt (.div (.mul (.var 1) (.add (.neg (.num 1 1)) (.mul (.num 2 1) (.var 1)))) (.mul (.var 0) (.add (.add (.num 1 1) (.mul (.num 3 1) (.var 1))) (.mul (.num 2 1) (.pow (.var 1) 2)))))) (.sqrt (.neg (.div (.sub (.var 1) (.mul (.num 4 1) (.pow (.var 1) 3))) (.add (.var 0) (.mul (.var 0) (.var 1))))))) (.sqrt (.div (.mul (.var 1) (.add (.add (.sub (.neg (.num 1 1)) (.var 1)) (.mul (.num 4 1) (.pow (.var 1) 2))) (.mul (.num 4 1) (.pow (.var 1) 3)))) (.var 0)))) (.sqrt (.mul (.mul (.add (.num 1 1) (.mul (.num 2 1) (.var 0))) (.var 1)) (.add (.add (.add (.num 3 1) (.mul (.num 11 1) (.var 1))) (.mul (.num 12 1) (.pow (.var 1) 2))) (.mul (.num 4 1) (.pow (.var 1) 3)))))),
  .div (.add (.add (.add (.add (.mul (.num 6 1) (.sqrt (.div (.mul (.var 0) (.add (.neg (.num 1 1)) (.mul (.num 2 1) (.var 1)))) (.mul (.add (.add (.add (.num 3 1) (.mul (.num 11 1) (.var 0))) (.mul (.num 12 1) (.pow (.var 0) 2))) (.mul (.num 4 1) (.pow (.var 0) 3))) (.add (.num 1 1) (.var 1)))))) (.mul (.num 4 1) (.sqrt (.div (.mul (.pow (.var 0) 3) (.add (.neg (.num 1 1)) (.mul (.num 2 1) (.var 1)))) (.mul (.add (.add (.add (.num 3 1) (.mul (.num 11 1) (.var 0))) (.mul (.num 12 1) (.pow (.var 0) 2))) (.mul (.num 4 1) (.pow (.var 0) 3))) (.add (.num 1 1) (.var 1))))))) (.mul (.num 3 1) (.sqrt (.div (.mul (.var 0) (.add (.add (.neg (.num 1 1)) (.var 1)) (.mul (.num 2 1) (.pow (.var 1) 2)))) (.add (.add (.add (.num 3 1) (.mul (.num 11 1) (.var 0))) (.mul (.num 12 1) (.pow (.var 0) 2))) (.mul (.num 4 1) (.pow (.var 0) 3))))))) (.mul (.num 2 1) (.sqrt (.div (.mul (.pow (.var 0) 3) (.add (.add (.neg (.num 1 1)) (.var 1)) (.mul (.num 2 1) (.pow (.var 1) 2)))) (.add (.add (.add (.num 3 1) (.mul (.num 11 1) (.var 0))) (.mul (.num 12 1) (.pow (.var 0) 2))) (.mul (.num 4 1) (.pow (.var 0) 3))))))) (.mul (.var 1) (.add (.add (.add (.mul (.num 6 1) (.sqrt (.div (.mul (.var 0) (.add (.neg (.num 1 1)) (.mul (.num 2 1) (.var 1)))) (.mul (.add (.add (.add (.num 3 1) (.mul (.num 11 1) (.var 0))) (.mul (.num 12 1) (.pow (.var 0) 2))) (.mul (.num 4 1) (.pow (.var 0) 3))) (.add (.num 1 1) (.var 1)))))) (.mul (.num 4 1) (.sqrt (.div (.mul (.pow (.var 0) 3) (.add (.neg (.num 1 1)) (.mul (.num 2 1) (.var 1)))) (.mul (.add (.add (.add (.num 3 1) (.mul (.num 11 1) (.var 0))) (.mul (.num 12 1) (.pow (.var 0) 2))) (.mul (.num 4 1) (.pow (.var 0) 3))) (.add (.num 1 1) (.var 1))))))) (.mul (.num 6 1) (.sqrt (.div (.mul (.var 0) (.add (.add (.neg (.num 1 1)) (.var 1)) (.mul (.num 2 1) (.pow (.var 1) 2)))) (.add (.add (.add (.num 3 1) (.mul (.num 11 1) (.var 0))) (.mul (.num 12 1) (.pow (.var 0) 2))) (.mul (.num 4 1) (.pow (.var 0) 3))))))) (.mul (.num 4 1) (.sqrt (.div (.mul (.pow (.var 0) 3) (.add (.add (.neg (.num 1 1)) (.var 1)) (.mul (.num 2 1) (.pow (.var 1) 2)))) (.add (.add (.add (.num 3 1) (.mul (.num 11 1) (.var 0))) (.mul (.num 12 1) (.pow (.var 0) 2))) (.mul (.num 4 1) (.pow (.var 0) 3))))))))) (.mul (.add (.num 1 1) (.mul (.num 2 1) (.var 1))) (.sqrt (.add (.add (.num 3 1) (.mul (.num 5 1) (.var 1))) (.mul (.num 2 1) (.pow (.var 1) 2))))),
  .neg (.div (.num 1 1) (.sqrt (.add (.add (.num 1 1) (.mul (.num 3 1) (.var 0))) (.mul (.num 2 1) (.pow (.var 0) 2))))),
  .neg (.div (.num 1 1) (.mul (.sqrt (.mul (.add (.num 1 1) (.var 0)) (.add (.num 1 1) (.mul (.num 2 1) (.var 0))))) (.var 1))),
  .neg (.div (.num 1 1) (.mul (.sqrt (.add (.add (.num 1 1) (.mul (.num 3 1) (.var 0))) (.mul (.num 2 1) (.pow (.var 0) 2)))) (.add (.var 1) (.mul (.num 2 1) (.pow (.var 1) 2))))),
  .div (.num 1 1) (.var 1),
  .div (.num 1 1) (.add (.var 1) (.mul (.num 2 1) (.pow (.var 1) 2))),
  .neg (.div (.add (.sub (.add (.sub (.sub (.add (.sub (.add (.mul (.mul (.mul (.neg (.num 2 1)) (.var 0)) (.hpow (.add (.add (.num 3 1) (.mul (.num 8 1) (.var 0))) (.mul (.num 4 1) (.pow (.var 0) 2))) 1)) (.sqrt (.div (.add (.neg (.num 1 1)) (.var 1)) (.add (.num 1 1) (.var 0))))) (.mul (.mul (.num 2 1) (.hpow (.add (.add (.num 3 1) (.mul (.num 8 1) (.var 0))) (.mul (.num 4 1) (.pow (.var 0) 2))) 1)) (.sqrt (.mul (.add (.num 1 1) (.var 0)) (.add (.neg (.num 1 1)) (.var 1)))))) (.mul (.mul (.mul (.num 4 1) (.var 0)) (.hpow (.add (.num 3 1) (.mul (.num 2 1) (.var 0))) 1)) (.sqrt (.div (.mul (.add (.num 1 1) (.mul (.num 2 1) (.var 0))) (.add (.neg (.num 1 1)) (.var 1))) (.add (.num 1 1) (.var 0)))))) (.mul (.mul (.add (.num 1 1) (.mul (.num 2 1) (.var 0))) (.add (.num 3 1) (.mul (.num 2 1) (.var 0)))) (.sqrt (.div (.mul (.add (.add (.num 3 1) (.mul (.num 8 1) (.var 0))) (.mul (.num 4 1) (.pow (.var 0) 2))) (.add (.neg (.num 1 1)) (.var 1))) (.add (.num 1 1) (.var 0)))))) (.mul (.mul (.mul (.num 2 1) (.hpow (.add (.add (.num 3 1) (.mul (.num 8 1) (.var 0))) (.mul (.num 4 1) (.pow (.var 0) 2))) 1)) (.sqrt (.div (.add (.num 1 1) (.var 0)) (.add (.neg (.num 1 1)) (.var 1))))) (.var 1))) (.mul (.mul (.mul (.mul (.num 4 1) (.var 0)) (.hpow (.add (.num 3 1) (.mul (.num 2 1) (.var 0))) 1)) (.sqrt (.div (.mul (.add (.num 1 1) (.mul (.num 2 1) (.var 0))) (.add (.neg (.num 1 1)) (.var 1))) (.add (.num 1 1) (.var 0))))) (.var 1))) (.mul (.mul (.mul (.add (.num 1 1) (.mul (.num 2 1) (.var 0))) (.hpow (.add (.num 3 1) (.mul (.num 2 1) (.var 0))) 1)) (.sqrt (.div (.mul (.add (.num 1 1) (.mul (.num 2 1) (.var 0))) (.add (.neg (.num 1 1)) (.var 1))) (.add (.num 1 1) (.var 0))))) (.var 1))) (.mul (.mul (.mul (.mul (.mul (.num 2 1) (.var 0)) (.add (.num 1 1) (.mul (.num 2 1) (.var 0)))) (.hpow (.add (.num 3 1) (.mul (.num 2 1) (.var 0))) 1)) (.sqrt (.div (.mul (.add (.num 1 1) (.mul (.num 2 1) (.var 0))) (.add (.neg (.num 1 1)) (.var 1))) (.add (.num 1 1) (.var 0))))) (.var 1))) (.mul (.mul (.mul (.num 2 1) (.hpow (.add (.add (.num 3 1) (.mul (.num 8 1) (.var 0))) (.mul (.num 4 1) (.pow (.var 0) 2))) 1)) (.sqrt (.div (.add (.num 1 1) (.var 0)) (.add (.neg (.num 1 1)) (.var 1))))) (.pow (.var 1) 2))) (.mul (.mul (.hpow (.add (.num 3 1) (.mul (.num 2 1) (.var 0))) 2) (.sqrt (.add (.num 1 1) (.var 1)))) (.add (.var 1) (.mul (.mul (.num 2 1) (.var 0)) (.var 1))))),
  .neg (.div (.num 1 1) (.mul (.var 1) (.sqrt (.div (.mul (.add (.add (.num 1 1) (.mul (.num 3 1) (.var 0))) (.mul (.num 2 1) (.pow (.var 0) 2))) (.add (.num 1 1) (.mul (.num 2 1) (.var 1)))) (.add (.neg (.num 1 1)) (.mul (.num 2 1) (.var 1))))))),
  .div (.sqrt (.add (.neg (.num 1 1)) (.pow (.var 1) 2))) (.var 1),
  .div (.sqrt (.div (.add (.neg (.num 1 1)) (.mul (.num 2 1) (.var 1))) (.add (.num 1 1) (.mul (.num 2 1) (.var 1))))) (.var 1),
  .neg (.div (.sub (.add (.add (.add (.add (.add (.sqrt (.div (.mul (.mul (.add (.num 1 1) (.mul (.num 2 1) (.var 0))) (.var 1)) (.add (.neg (.num 1 1)) (.mul (.num 2 1) (.var 1)))) (.mul (.add (.num 1 1) (.var 0)) (.add (.add (.num 1 1) (.mul (.num 3 1) (.var 1))) (.mul (.num 2 1) (.pow (.var 1) 2)))))) (.mul (.num 2 1) (.sqrt (.div (.mul (.mul (.add (.add (.num 1 1) (.mul (.num 3 1) (.var 0))) (.mul (.num 2 1) (.pow (.var 0) 2))) (.var 1)) (.add (.neg (.num 1 1)) (.mul (.num 2 1) (.var 1)))) (.add (.add (.num 1 1) (.mul (.num 3 1) (.var 1))) (.mul (.num 2 1) (.pow (.var 1) 2))))))) (.sqrt (.div (.mul (.mul (.add (.num 1 1) (.mul (.num 2 1) (.var 0))) (.var 1)) (.add (.neg (.num 1 1)) (.mul (.num 4 1) (.pow (.var 1) 2)))) (.mul (.add (.num 1 1) (.var 0)) (.add (.num 1 1) (.var 1)))))) (.mul (.num 2 1) (.sqrt (.div (.mul (.mul (.add (.add (.num 1 1) (.mul (.num 3 1) (.var 0))) (.mul (.num 2 1) (.pow (.var 0) 2))) (.var 1)) (.add (.neg (.num 1 1)) (.mul (.num 4 1) (.pow (.var 1) 2)))) (.add (.num 1 1) (.var 1)))))) (.sqrt (.div (.mul (.mul (.add (.num 1 1) (.mul (.num 2 1) (.var 0))) (.var 1)) (.add (.add (.sub (.neg (.num 1 1)) (.var 1)) (.mul (.num 4 1) (.pow (.var 1) 2))) (.mul (.num 4 1) (.pow (.var 1) 3)))) (.add (.num 1 1) (.var 0))))) (.mul (.num 2 1) (.sqrt (.mul (.mul (.add (.add (.num 1 1) (.mul (.num 3 1) (.var 0))) (.mul (.num 2 1) (.pow (.var 0) 2))) (.var 1)) (.add (.add (.sub (.neg (.num 1 1)) (.var 1)) (.mul (.num 4 1) (.pow (.var 1) 2))) (.mul (.num 4 1) (.pow (.var 1) 3))))))) (.mul (.mul (.num 2 1) (.var 0)) (.add (.add (.add (.add (.add (.sqrt (.div (.mul (.mul (.add (.num 1 1) (.mul (.num 2 1) (.var 0))) (.var 1)) (.add (.neg (.num 1 1)) (.mul (.num 2 1) (.var 1)))) (.mul (.add (.num 1 1) (.var 0)) (.add (.add (.num 1 1) (.mul (.num 3 1) (.var 1))) (.mul (.num 2 1) (.pow (.var 1) 2)))))) (.mul (.num 2 1) (.sqrt (.div (.mul (.var 1) (.add (.neg (.num 1 1)) (.mul (.num 2 1) (.var 1)))) (.mul (.add (.add (.num 1 1) (.mul (.num 3 1) (.var 0))) (.mul (.num 2 1) (.pow (.var 0) 2))) (.add (.add (.num 1 1) (.mul (.num 3 1) (.var 1))) (.mul (.num 2 1) (.pow (.var 1) 2)))))))) (.sqrt (.div (.mul (.mul (.add (.num 1 1) (.mul (.num 2 1) (.var 0))) (.var 1)) (.add (.neg (.num 1 1)) (.mul (.num 4 1) (.pow (.var 1) 2)))) (.mul (.add (.num 1 1) (.var 0)) (.add (.num 1 1) (.var 1)))))) (.mul (.num 2 1) (.sqrt (.div (.mul (.var 1) (.add (.neg (.num 1 1)) (.mul (.num 4 1) (.pow (.var 1) 2)))) (.mul (.add (.add (.num 1 1) (.mul (.num 3 1) (.var 0))) (.mul (.num 2 1) (.pow (.var 0) 2))) (.add (.num 1 1) (.var 1))))))) (.sqrt (.div (.mul (.mul (.add (.num 1 1) (.mul (.num 2 1) (.var 0))) (.var 1)) (.add (.add (.sub (.neg (.num 1 1)) (.var 1)) (.mul (.num 4 1) (.pow (.var 1) 2))) (.mul (.num 4 1) (.pow (.var 1) 3)))) (.add (.num 1 1) (.var 0))))) (.mul (.num 2 1) (.sqrt (.div (.mul (.var 1) (.add (.add (.sub (.neg (.num 1 1)) (.var 1)) (.mul (.num 4 1) (.pow (.var 1) 2))) (.mul (.num 4 1) (.pow (.var 1) 3)))) (.add (.add (.num 1 1) (.mul (.num 3 1) (.var 0))) (.mul (.num 2 1) (.pow (.var 0) 2))))))))) (.mul (.add (.num 3 1) (.mul (.num 2 1) (.var 0))) (.sqrt (.mul (.var 1) (.add (.add (.add (.num 3 1) (.mul (.num 11 1) (.var 1))) (.mul (.num 12 1) (.pow (.var 1) 2))) (.mul (.num 4 1) (.pow (.var 1) 3))))))),
  .div (.mul (.add (.num 2 1) (.var 0)) (.add (.add (.sqrt (.div (.mul (.var 1) (.add (.neg (.num 1 1)) (.mul (.num 2 1) (.var 1)))) (.mul (.add (.num 2 1) (.var 0)) (.add (.add (.num 1 1) (.mul (.num 3 1) (.var 1))) (.mul (.num 2 1) (.pow (.var 1) 2)))))) (.sqrt (.div (.mul (.var 1) (.add (.neg (.num 1 1)) (.mul (.num 4 1) (.pow (.var 1) 2)))) (.mul (.add (.num 2 1) (.var 0)) (.add (.num 1 1) (.var 1)))))) (.sqrt (.div (.mul (.var 1) (.add (.add (.sub (.neg (.num 1 1)) (.var 1)) (.mul (.num 4 1) (.pow (.var 1) 2))) (.mul (.num 4 1) (.pow (.var 1) 3)))) (.add (.num 2 1) (.var 0)))))) (.sqrt (.mul (.mul (.add (.num 2 1) (.var 0)) (.var 1)) (.add (.add (.add (.num 3 1) (.mul (.num 11 1) (.var 1))) (.mul (.num 12 1) (.pow (.var 1) 2))) (.mul (.num 4 1) (.pow (.var 1) 3))))),
  .mul (.neg (.num 2 1)) (.sqrt (.div (.add (.neg (.num 1 1)) (.pow (.var 0) 2)) (.add (.neg (.num 1 1)) (.mul (.num 4 1) (.pow (.var 0) 2))))),
  .div (.sqrt (.num 3 1)) (.sqrt (.add (.neg (.num 1 1)) (.mul (.num 4 1) (.pow (.var 0) 2)))),
  .neg (.div (.sqrt (.add (.add (.neg (.num 3 1)) (.mul (.num 4 1) (.var 0))) (.mul (.num 4 1) (.pow (.var 0) 2)))) (.add (.num 1 1) (.mul (.num 2 1) (.var 0)))),
  .div (.num 2 1) (.add (.num 1 1) (.mul (.num 2 1) (.var 0))),
  .div (.mul (.mul (.var 0) (.sqrt (.div (.add (.num 4 1) (.mul (.num 4 1) (.var 0))) (.add (.var 0) (.mul (.num 2 1) (.pow (.var 0) 2)))))) (.sub (.sub (.sub (.mul (.sqrt (.div (.add (.add (.num 2 1) (.mul (.num 3 1) (.var 0))) (.pow (.var 0) 2)) (.add (.num 3 1) (.mul (.num 2 1) (.var 0))))) (.add (.add (.num 3 1) (.mul (.num 8 1) (.var 0))) (.mul (.num 4 1) (.pow (.var 0) 2)))) (.mul (.mul (.var 0) (.sqrt (.div (.add (.add (.num 2 1) (.mul (.num 3 1) (.var 0))) (.pow (.var 0) 2)) (.add (.num 3 1) (.mul (.num 2 1) (.var 0)))))) (.add (.add (.num 3 1) (.mul (.num 8 1) (.var 0))) (.mul (.num 4 1) (.pow (.var 0) 2))))) (.mul (.num 7 1) (.sqrt (.add (.add (.add (.num 6 1) (.mul (.num 13 1) (.var 0))) (.mul (.num 9 1) (.pow (.var 0) 2))) (.mul (.num 2 1) (.pow (.var 0) 3)))))) (.mul (.mul (.num 8 1) (.var 0)) (.sqrt (.add (.add (.add (.num 6 1) (.mul (.num 13 1) (.var 0))) (.mul (.num 9 1) (.pow (.var 0) 2))) (.mul (.num 2 1) (.pow (.var 0) 3))))))) (.mul (.pow (.add (.num 3 1) (.mul (.num 2 1) (.var 0))) 2) (.add (.add (.num 2 1) (.mul (.num 3 1) (.var 0))) (.pow (.var 0) 2))),
  .div (.sqrt (.num 3 1)) (.sqrt (.add (.add (.num 3 1) (.mul (.num 8 1) (.var 0))) (.mul (.num 4 1) (.pow (.var 0) 2)))),
  .div (.num 1 1) (.sub (.neg (.num 1 1)) (.mul (.num 2 1) (.var 0))),
  .neg (.div (.num 1 1) (.add (.var 1) (.mul (.mul (.num 2 1) (.var 0)) (.var 1)))),
  .neg (.div (.num 1 1) (.mul (.add (.num 1 1) (.mul (.num 2 1) (.var 0))) (.add (.var 1) (.mul (.num 2 1) (.pow (.var 1) 2))))),
  .neg (.div (.add (.sqrt (.div (.add (.neg (.num 1 1)) (.var 1)) (.var 1))) (.sqrt (.mul (.add (.neg (.num 1 1)) (.var 1)) (.var 1)))) (.sqrt (.mul (.var 1) (.add (.num 1 1) (.var 1))))),
  .neg (.div (.sqrt (.add (.neg (.num 1 1)) (.pow (.var 1) 2))) (.add (.var 1) (.mul (.mul (.num 2 1) (.var 0)) (.var 1)))),
  .neg (.div (.sqrt (.div (.add (.neg (.num 1 1)) (.mul (.num 2 1) (.var 1))) (.add (.num 1 1) (.mul (.num 2 1) (.var 1))))) (.add (.var 1) (.mul (.mul (.num 2 1) (.var 0)) (.var 1)))),
  .neg (.div (.add (.add (.sqrt (.mul (.mul (.mul (.var 1) (.add (.num 1 1) (.var 1))) (.add (.neg (.num 1 1)) (.mul (.num 2 1) (.var 1)))) (.add (.num 1 1) (.mul (.num 2 1) (.var 1))))) (.sqrt (.div (.mul (.var 1) (.add (.neg (.num 1 1)) (.mul (.num 2 1) (.var 1)))) (.add (.add (.num 1 1) (.mul (.num 3 1) (.var 1))) (.mul (.num 2 1) (.pow (.var 1) 2)))))) (.sqrt (.div (.mul (.var 1) (.add (.neg (.num 1 1)) (.mul (.num 4 1) (.pow (.var 1) 2)))) (.add (.num 1 1) (.var 1))))) (.sqrt (.mul (.mul (.var 1) (.add (.num 1 1) (.mul (.num 2 1) (.var 1)))) (.add (.add (.num 3 1) (.mul (.num 5 1) (.var 1))) (.mul (.num 2 1) (.pow (.var 1) 2)))))),
  .neg (.div (.add (.add (.sqrt (.div (.mul (.var 1) (.add (.neg (.num 1 1)) (.mul (.num 2 1) (.var 1)))) (.add (.add (.num 1 1) (.mul (.num 3 1) (.var 1))) (.mul (.num 2 1) (.pow (.var 1) 2))))) (.sqrt (.div (.mul (.var 1) (.add (.neg (.num 1 1)) (.mul (.num 4 1) (.pow (.var 1) 2)))) (.add (.num 1 1) (.var 1))))) (.sqrt (.mul (.var 1) (.add (.add (.sub (.neg (.num 1 1)) (.var 1)) (.mul (.num 4 1) (.pow (.var 1) 2))) (.mul (.num 4 1) (.pow (.var 1) 3)))))) (.mul (.add (.num 1 1) (.mul (.num 2 1) (.var 0))) (.sqrt (.mul (.var 1) (.add (.add (.add (.num 3 1) (.mul (.num 11 1) (.var 1))) (.mul (.num 12 1) (.pow (.var 1) 2))) (.mul (.num 4 1) (.pow (.var 1) 3))))))),
  .div (.mul (.neg (.num 2 1)) (.sqrt (.mul (.mul (.var 0) (.add (.num 1 1) (.var 0))) (.add (.neg (.num 1 1)) (.pow (.var 1) 2))))) (.add (.var 1) (.mul (.mul (.num 2 1) (.var 0)) (.var 1))),
  .div (.mul (.neg (.num 2 1)) (.sqrt (.div (.mul (.mul (.var 0) (.add (.num 1 1) (.var 0))) (.add (.neg (.num 1 1)) (.mul (.num 2 1) (.var 1)))) (.add (.num 1 1) (.mul (.num 2 1) (.var 1)))))) (.add (.var 1) (.mul (.mul (.num 2 1) (.var 0)) (.var 1))),
  .div (.mul (.neg (.num 1 2)) (.add (.add (.add (.add (.add (.mul (.num 2 1) (.sqrt (.div (.mul (.mul (.mul (.mul (.mul (.var 0) (.pow (.add (.num 1 1) (.var 0)) 3)) (.var 1)) (.add (.num 1 1) (.var 1))) (.add (.neg (.num 1 1)) (.mul (.num 2 1) (.var 1)))) (.pow (.add (.num 3 1) (.mul (.num 2 1) (.var 1))) 3)) (.pow (.add (.num 1 1) (.mul (.num 2 1) (.var 1))) 3)))) (.mul (.num 2 1) (.sqrt (.div (.mul (.mul (.mul (.mul (.mul (.var 0) (.pow (.add (.num 1 1) (.var 0)) 3)) (.var 1)) (.add (.num 1 1) (.var 1))) (.add (.neg (.num 1 1)) (.mul (.num 2 1) (.var 1)))) (.pow (.add (.num 3 1) (.mul (.num 2 1) (.var 1))) 3)) (.add (.num 1 1) (.mul (.num 2 1) (.var 1))))))) (.mul (.num 2 1) (.sqrt (.div (.mul (.mul (.mul (.mul (.mul (.var 0) (.pow (.add (.num 1 1) (.var 0)) 3)) (.var 1)) (.add (.num 1 1) (.var 1))) (.add (.neg (.num 1 1)) (.mul (.num 2 1) (.var 1)))) (.pow (.add (.num 3 1) (.mul (.num 2 1) (.var 1))) 3)) (.mul (.pow (.add (.num 1 1) (.mul (.num 2 1) (.var 0))) 2) (.add (.num 1 1) (.mul (.num 2 1) (.var 1)))))))) (.mul (.num 2 1) (.sqrt (.div (.mul (.mul (.mul (.mul (.var 0) (.pow (.add (.num 1 1) (.var 0)) 3)) (.var 1)) (.add (.neg (.num 1 1)) (.mul (.num 2 1) (.var 1)))) (.pow (.add (.add (.num 3 1) (.mul (.num 5 1) (.var 1))) (.mul (.num 2 1) (.pow (.var 1) 2))) 3)) (.add (.num 1 1) (.mul (.num 2 1) (.var 1))))))) (.mul (.num 2 1) (.sqrt (.div (.mul (.mul (.mul (.mul (.var 0) (.pow (.add (.num 1 1) (.var 0)) 3)) (.var 1)) (.add (.neg (.num 1 1)) (.mul (.num 2 1) (.var 1)))) (.pow (.add (.add (.num 3 1) (.mul (.num 5 1) (.var 1))) (.mul (.num 2 1) (.pow (.var 1) 2))) 3)) (.mul (.pow (.add (.num 1 1) (.mul (.num 2 1) (.var 0))) 2) (.add (.num 1 1) (.mul (.num 2 1) (.var 1)))))))) (.div (.mul (.mul (.mul (.mul (.num 2 1) (.hpow (.add (.num 1 1) (.var 0)) 1)) (.add (.num 1 1) (.var 1))) (.add (.num 3 1) (.mul (.num 2 1) (.var 1)))) (.sqrt (.div (.mul (.mul (.var 0) (.var 1)) (.add (.add (.neg (.num 3 1)) (.mul (.num 4 1) (.var 1))) (.mul (.num 4 1) (.pow (.var 1) 2)))) (.add (.add (.num 1 1) (.mul (.num 3 1) (.var 1))) (.mul (.num 2 1) (.pow (.var 1) 2)))))) (.mul (.add (.num 1 1) (.mul (.num 2 1) (.var 0))) (.add (.num 1 1) (.mul (.num 2 1) (.var 1))))))) (.sqrt (.div (.mul (.mul (.mul (.pow (.add (.num 1 1) (.var 0)) 4) (.var 1)) (.pow (.add (.num 1 1) (.var 1)) 3)) (.pow (.add (.num 3 1) (.mul (.num 2 1) (.var 1))) 4)) (.add (.num 1 1) (.mul (.num 2 1) (.var 1))))),
  .neg (.div (.add (.add (.add (.add (.add (.sqrt (.div (.mul (.mul (.mul (.mul (.var 0) (.pow (.add (.num 1 1) (.var 0)) 3)) (.var 1)) (.pow (.add (.num 3 1) (.mul (.num 2 1) (.var 1))) 3)) (.add (.add (.neg (.num 1 1)) (.var 1)) (.mul (.num 2 1) (.pow (.var 1) 2)))) (.pow (.add (.num 1 1) (.mul (.num 2 1) (.var 1))) 3))) (.sqrt (.div (.mul (.mul (.mul (.mul (.var 0) (.pow (.add (.num 1 1) (.var 0)) 3)) (.var 1)) (.pow (.add (.num 3 1) (.mul (.num 2 1) (.var 1))) 3)) (.add (.add (.neg (.num 1 1)) (.var 1)) (.mul (.num 2 1) (.pow (.var 1) 2)))) (.add (.num 1 1) (.mul (.num 2 1) (.var 1)))))) (.sqrt (.div (.mul (.mul (.mul (.mul (.var 0) (.pow (.add (.num 1 1) (.var 0)) 3)) (.var 1)) (.pow (.add (.num 3 1) (.mul (.num 2 1) (.var 1))) 3)) (.add (.add (.neg (.num 1 1)) (.var 1)) (.mul (.num 2 1) (.pow (.var 1) 2)))) (.mul (.pow (.add (.num 1 1) (.mul (.num 2 1) (.var 0))) 2) (.add (.num 1 1) (.mul (.num 2 1) (.var 1))))))) (.sqrt (.div (.mul (.mul (.mul (.mul (.var 0) (.pow (.add (.num 1 1) (.var 0)) 3)) (.var 1)) (.add (.neg (.num 1 1)) (.mul (.num 2 1) (.var 1)))) (.pow (.add (.add (.num 3 1) (.mul (.num 5 1) (.var 1))) (.mul (.num 2 1) (.pow (.var 1) 2))) 3)) (.add (.num 1 1) (.mul (.num 2 1) (.var 1)))))) (.sqrt (.div (.mul (.mul (.mul (.mul (.var 0) (.pow (.add (.num 1 1) (.var 0)) 3)) (.var 1)) (.add (.neg (.num 1 1)) (.mul (.num 2 1) (.var 1)))) (.pow (.add (.add (.num 3 1) (.mul (.num 5 1) (.var 1))) (.mul (.num 2 1) (.pow (.var 1) 2))) 3)) (.mul (.pow (.add (.num 1 1) (.mul (.num 2 1) (.var 0))) 2) (.add (.num 1 1) (.mul (.num 2 1) (.var 1))))))) (.div (.mul (.mul (.mul (.add (.num 1 1) (.var 0)) (.add (.num 1 1) (.var 1))) (.add (.num 3 1) (.mul (.num 2 1) (.var 1)))) (.sqrt (.div (.mul (.mul (.mul (.var 0) (.add (.num 1 1) (.var 0))) (.var 1)) (.add (.add (.neg (.num 3 1)) (.mul (.num 4 1) (.var 1))) (.mul (.num 4 1) (.pow (.var 1) 2)))) (.mul (.pow (.add (.num 1 1) (.mul (.num 2 1) (.var 0))) 2) (.add (.add (.num 1 1) (.mul (.num 3 1) (.var 1))) (.mul (.num 2 1) (.pow (.var 1) 2))))))) (.add (.num 1 1) (.mul (.num 2 1) (.var 1))))) (.sqrt (.div (.mul (.mul (.mul (.pow (.add (.num 1 1) (.var 0)) 4) (.var 1)) (.pow (.add (.num 1 1) (.var 1)) 3)) (.pow (.add (.num 3 1) (.mul (.num 2 1) (.var 1))) 4)) (.add (.num 1 1) (.mul (.num 2 1) (.var 1)))))),
  .neg (.div (.sqrt (.num 6 1)) (.sqrt (.mul (.mul (.var 1) (.add (.num 1 1) (.mul (.num 2 1) (.var 1)))) (.add (.sub (.num 1 1) (.mul (.num 3 1) (.var 1))) (.mul (.num 2 1) (.pow (.var 1) 2)))))),
  .neg (.div (.sqrt (.num 2 1)) (.mul (.add (.num 1 1) (.mul (.num 2 1) (.var 0))) (.sqrt (.mul (.add (.neg (.num 1 1)) (.var 1)) (.var 1))))),
  .neg (.div (.sqrt (.num 6 1)) (.mul (.add (.num 1 1) (.mul (.num 2 1) (.var 0))) (.sqrt (.mul (.mul (.var 1) (.add (.num 1 1) (.mul (.num 2 1) (.var 1)))) (.add (.sub (.num 1 1) (.mul (.num 3 1) (.var 1))) (.mul (.num 2 1) (.pow (.var 1) 2))))))),
  .neg (.div (.num 1 1) (.sqrt (.div (.mul (.add (.neg (.num 1 1)) (.var 1)) (.var 1)) (.add (.sub (.neg (.num 2 1)) (.var 1)) (.pow (.var 1) 2))))),
  .div (.mul (.sub (.num 3 1) (.mul (.num 2 1) (.var 1))) (.sqrt (.div (.add (.add (.num 3 1) (.mul (.num 9 1) (.var 1))) (.mul (.num 6 1) (.pow (.var 1) 2))) (.add (.sub (.num 3 1) (.mul (.num 5 1) (.var 1))) (.mul (.num 2 1) (.pow (.var 1) 2)))))) (.mul (.var 1) (.add (.num 1 1) (.mul (.num 2 1) (.var 1)))),
  .neg (.div (.mul (.add (.neg (.num 2 1)) (.var 1)) (.sqrt (.div (.mul (.var 1) (.add (.num 1 1) (.var 1))) (.add (.sub (.num 2 1) (.mul (.num 3 1) (.var 1))) (.pow (.var 1) 2))))) (.add (.var 1) (.mul (.mul (.num 2 1) (.var 0)) (.var 1)))),
  .div (.mul (.sub (.num 3 1) (.mul (.num 2 1) (.var 1))) (.sqrt (.div (.add (.add (.num 3 1) (.mul (.num 9 1) (.var 1))) (.mul (.num 6 1) (.pow (.var 1) 2))) (.add (.sub (.num 3 1) (.mul (.num 5 1) (.var 1))) (.mul (.num 2 1) (.pow (.var 1) 2)))))) (.mul (.mul (.add (.num 1 1) (.mul (.num 2 1) (.var 0))) (.var 1)) (.add (.num 1 1) (.mul (.num 2 1) (.var 1)))),
  .div (.neg (.num 3 1)) (.mul (.add (.num 1 1) (.mul (.num 2 1) (.var 0))) (.add (.var 1) (.mul (.num 2 1) (.pow (.var 1) 2)))),
  .neg (.div (.mul (.sqrt (.div (.add (.neg (.num 1 1)) (.var 1)) (.add (.add (.add (.num 3 1) (.mul (.num 11 1) (.var 1))) (.mul (.num 12 1) (.pow (.var 1) 2))) (.mul (.num 4 1) (.pow (.var 1) 3))))) (.add (.add (.mul (.num 6 1) (.sqrt (.div (.sub (.num 3 1) (.mul (.num 2 1) (.var 1))) (.sub (.num 1 1) (.mul (.num 2 1) (.var 1)))))) (.mul (.num 3 1) (.sqrt (.add (.sub (.num 3 1) (.mul (.num 8 1) (.var 1))) (.mul (.num 4 1) (.pow (.var 1) 2)))))) (.mul (.var 1) (.sqrt (.add (.sub (.num 3 1) (.mul (.num 8 1) (.var 1))) (.mul (.num 4 1) (.pow (.var 1) 2))))))) (.var 1)),
  .neg (.div (.mul (.sqrt (.num 3 1)) (.sqrt (.div (.add (.add (.neg (.num 3 1)) (.var 1)) (.mul (.num 2 1) (.pow (.var 1) 2))) (.add (.add (.num 1 1) (.mul (.num 3 1) (.var 1))) (.mul (.num 2 1) (.pow (.var 1) 2)))))) (.var 1)),
  .neg (.div (.sqrt (.num 6 1)) (.sqrt (.mul (.mul (.var 1) (.add (.num 1 1) (.mul (.num 2 1) (.var 1)))) (.add (.add (.num 3 1) (.mul (.num 5 1) (.var 1))) (.mul (.num 2 1) (.pow (.var 1) 2)))))),
  .neg (.div (.add (.add (.div (.mul (.mul (.num 3 1) (.add (.neg (.num 3 1)) (.mul (.num 2 1) (.var 1)))) (.add (.neg (.num 1 1)) (.mul (.num 2 1) (.var 1)))) (.sqrt (.div (.mul (.mul (.mul (.add (.num 1 1) (.mul (.num 2 1) (.var 0))) (.pow (.var 1) 2)) (.add (.sub (.neg (.num 3 1)) (.mul (.num 4 1) (.var 1))) (.mul (.num 4 1) (.pow (.var 1) 2)))) (.add (.add (.add (.neg (.num 3 1)) (.var 1)) (.mul (.num 8 1) (.pow (.var 1) 2))) (.mul (.num 4 1) (.pow (.var 1) 3)))) (.add (.neg (.num 1 1)) (.var 1))))) (.div (.mul (.num 6 1) (.sqrt (.div (.add (.sub (.num 3 1) (.mul (.num 5 1) (.var 1))) (.mul (.num 2 1) (.pow (.var 1) 2))) (.mul (.add (.num 1 1) (.mul (.num 2 1) (.var 0))) (.add (.add (.add (.sub (.neg (.num 3 1)) (.mul (.num 5 1) (.var 1))) (.mul (.num 10 1) (.pow (.var 1) 2))) (.mul (.num 20 1) (.pow (.var 1) 3))) (.mul (.num 8 1) (.pow (.var 1) 4))))))) (.var 1))) (.div (.mul (.add (.neg (.num 1 1)) (.mul (.num 2 1) (.var 1))) (.add (.sub (.num 3 1) (.mul (.num 5 1) (.var 1))) (.mul (.num 2 1) (.pow (.var 1) 2)))) (.sqrt (.mul (.add (.num 1 1) (.mul (.num 2 1) (.var 0))) (.add (.sub (.add (.neg (.num 9 1)) (.mul (.num 49 1) (.pow (.var 1) 2))) (.mul (.num 56 1) (.pow (.var 1) 4))) (.mul (.num 16 1) (.pow (.var 1) 6))))))) (.sqrt (.add (.num 1 1) (.mul (.num 2 1) (.var 0))))),
  .neg (.div (.mul (.mul (.sqrt (.num 3 1)) (.add (.add (.add (.neg (.num 3 1)) (.var 1)) (.mul (.num 8 1) (.pow (.var 1) 2))) (.mul (.num 4 1) (.pow (.var 1) 3)))) (.add (.sub (.add (.sub (.add (.mul (.neg (.num 3 1)) (.sqrt (.mul (.mul (.add (.num 1 1) (.mul (.num 2 1) (.var 0))) (.var 1)) (.add (.num 1 1) (.mul (.num 2 1) (.var 1)))))) (.mul (.mul (.num 7 1) (.var 1)) (.sqrt (.mul (.mul (.add (.num 1 1) (.mul (.num 2 1) (.var 0))) (.var 1)) (.add (.num 1 1) (.mul (.num 2 1) (.var 1))))))) (.mul (.mul (.num 3 1) (.pow (.var 1) 2)) (.sqrt (.mul (.mul (.add (.num 1 1) (.mul (.num 2 1) (.var 0))) (.var 1)) (.add (.num 1 1) (.mul (.num 2 1) (.var 1))))))) (.mul (.mul (.num 2 1) (.pow (.var 1) 3)) (.sqrt (.mul (.mul (.add (.num 1 1) (.mul (.num 2 1) (.var 0))) (.var 1)) (.add (.num 1 1) (.mul (.num 2 1) (.var 1))))))) (.mul (.num 9 1) (.sqrt (.mul (.mul (.add (.num 1 1) (.mul (.num 2 1) (.var 0))) (.pow (.var 1) 3)) (.add (.num 1 1) (.mul (.num 2 1) (.var 1))))))) (.mul (.num 6 1) (.sqrt (.mul (.mul (.add (.num 1 1) (.mul (.num 2 1) (.var 0))) (.pow (.var 1) 5)) (.add (.num 1 1) (.mul (.num 2 1) (.var 1)))))))) (.sqrt (.mul (.mul (.mul (.mul (.mul (.pow (.add (.num 1 1) (.mul (.num 2 1) (.var 0))) 3) (.add (.neg (.num 1 1)) (.var 1))) (.pow (.var 1) 3)) (.pow (.add (.num 1 1) (.var 1)) 5)) (.pow (.add (.num 3 1) (.mul (.num 2 1) (.var 1))) 3)) (.pow (.sub (.num 1 1) (.mul (.num 4 1) (.pow (.var 1) 2))) 2)))),
  .neg (.div (.sqrt (.num 6 1)) (.mul (.add (.num 1 1) (.mul (.num 2 1) (.var 0))) (.sqrt (.mul (.mul (.var 1) (.add (.num 1 1) (.mul (.num 2 1) (.var 1)))) (.add (.add (.num 3 1) (.mul (.num 5 1) (.var 1))) (.mul (.num 2 1) (.pow (.var 1) 2))))))),
  .neg (.div (.mul (.sqrt (.div (.add (.neg (.num 1 1)) (.var 1)) (.var 1))) (.add (.add (.add (.add (.mul (.mul (.mul (.var 1) (.hpow (.add (.num 1 1) (.var 1)) 1)) (.add (.num 1 1) (.mul (.num 2 1) (.var 1)))) (.sqrt (.add (.add (.add (.neg (.num 6 1)) (.mul (.num 5 1) (.var 1))) (.mul (.num 12 1) (.pow (.var 1) 2))) (.mul (.num 4 1) (.pow (.var 1) 3))))) (.mul (.mul (.num 9 1) (.pow (.var 1) 2)) (.sqrt (.div (.add (.add (.add (.neg (.num 6 1)) (.mul (.num 5 1) (.var 1))) (.mul (.num 12 1) (.pow (.var 1) 2))) (.mul (.num 4 1) (.pow (.var 1) 3))) (.add (.num 1 1) (.var 1)))))) (.mul (.mul (.num 6 1) (.pow (.var 1) 3)) (.sqrt (.div (.add (.add (.add (.neg (.num 6 1)) (.mul (.num 5 1) (.var 1))) (.mul (.num 12 1) (.pow (.var 1) 2))) (.mul (.num 4 1) (.pow (.var 1) 3))) (.add (.num 1 1) (.var 1)))))) (.mul (.num 6 1) (.sqrt (.add (.add (.add (.sub (.neg (.num 6 1)) (.var 1)) (.mul (.num 17 1) (.pow (.var 1) 2))) (.mul (.num 16 1) (.pow (.var 1) 3))) (.mul (.num 4 1) (.pow (.var 1) 4)))))) (.mul (.mul (.num 3 1) (.var 1)) (.add (.sqrt (.div (.add (.add (.add (.neg (.num 6 1)) (.mul (.num 5 1) (.var 1))) (.mul (.num 12 1) (.pow (.var 1) 2))) (.mul (.num 4 1) (.pow (.var 1) 3))) (.add (.num 1 1) (.var 1)))) (.mul (.num 3 1) (.sqrt (.add (.add (.add (.sub (.neg (.num 6 1)) (.var 1)) (.mul (.num 17 1) (.pow (.var 1) 2))) (.mul (.num 16 1) (.pow (.var 1) 3))) (.mul (.num 4 1) (.pow (.var 1) 4))))))))) (.mul (.pow (.add (.num 1 1) (.var 1)) 2) (.add (.add (.add (.num 6 1) (.mul (.num 19 1) (.var 1))) (.mul (.num 16 1) (.pow (.var 1) 2))) (.mul (.num 4 1) (.pow (.var 1) 3))))),
  .neg (.div (.mul (.sqrt (.num 2 1)) (.add (.add (.mul (.num 6 1) (.sqrt (.mul (.var 1) (.add (.add (.neg (.num 3 1)) (.mul (.num 4 1) (.var 1))) (.mul (.num 4 1) (.pow (.var 1) 2)))))) (.mul (.num 7 1) (.sqrt (.mul (.pow (.var 1) 3) (.add (.add (.neg (.num 3 1)) (.mul (.num 4 1) (.var 1))) (.mul (.num 4 1) (.pow (.var 1) 2))))))) (.mul (.num 2 1) (.sqrt (.mul (.pow (.var 1) 5) (.add (.add (.neg (.num 3 1)) (.mul (.num 4 1) (.var 1))) (.mul (.num 4 1) (.pow (.var 1) 2)))))))) (.mul (.mul (.mul (.var 1) (.add (.num 2 1) (.var 1))) (.add (.num 3 1) (.mul (.num 2 1) (.var 1)))) (.sqrt (.mul (.add (.num 1 1) (.mul (.num 2 1) (.var 1))) (.add (.add (.num 3 1) (.mul (.num 5 1) (.var 1))) (.mul (.num 2 1) (.pow (.var 1) 2))))))),
  .neg (.div (.mul (.mul (.sqrt (.add (.neg (.num 1 1)) (.var 1))) (.var 1)) (.add (.add (.add (.mul (.num 6 1) (.sqrt (.div (.mul (.add (.num 1 1) (.mul (.num 2 1) (.var 0))) (.add (.add (.add (.neg (.num 6 1)) (.mul (.num 5 1) (.var 1))) (.mul (.num 12 1) (.pow (.var 1) 2))) (.mul (.num 4 1) (.pow (.var 1) 3)))) (.add (.num 1 1) (.var 1))))) (.mul (.mul (.num 3 1) (.pow (.var 1) 2)) (.add (.mul (.num 3 1) (.sqrt (.div (.mul (.add (.num 1 1) (.mul (.num 2 1) (.var 0))) (.add (.add (.add (.neg (.num 6 1)) (.mul (.num 5 1) (.var 1))) (.mul (.num 12 1) (.pow (.var 1) 2))) (.mul (.num 4 1) (.pow (.var 1) 3)))) (.add (.num 1 1) (.var 1))))) (.sqrt (.mul (.add (.num 1 1) (.mul (.num 2 1) (.var 0))) (.add (.add (.add (.sub (.neg (.num 6 1)) (.var 1)) (.mul (.num 17 1) (.pow (.var 1) 2))) (.mul (.num 16 1) (.pow (.var 1) 3))) (.mul (.num 4 1) (.pow (.var 1) 4)))))))) (.mul (.mul (.num 2 1) (.pow (.var 1) 3)) (.add (.mul (.num 3 1) (.sqrt (.div (.mul (.add (.num 1 1) (.mul (.num 2 1) (.var 0))) (.add (.add (.add (.neg (.num 6 1)) (.mul (.num 5 1) (.var 1))) (.mul (.num 12 1) (.pow (.var 1) 2))) (.mul (.num 4 1) (.pow (.var 1) 3)))) (.add (.num 1 1) (.var 1))))) (.sqrt (.mul (.add (.num 1 1) (.mul (.num 2 1) (.var 0))) (.add (.add (.add (.sub (.neg (.num 6 1)) (.var 1)) (.mul (.num 17 1) (.pow (.var 1) 2))) (.mul (.num 16 1) (.pow (.var 1) 3))) (.mul (.num 4 1) (.pow (.var 1) 4)))))))) (.mul (.var 1) (.add (.mul (.num 9 1) (.sqrt (.div (.mul (.add (.num 1 1) (.mul (.num 2 1) (.var 0))) (.add (.add (.add (.neg (.num 6 1)) (.mul (.num 5 1) (.var 1))) (.mul (.num 12 1) (.pow (.var 1) 2))) (.mul (.num 4 1) (.pow (.var 1) 3)))) (.add (.num 1 1) (.var 1))))) (.mul (.num 10 1) (.sqrt (.mul (.add (.num 1 1) (.mul (.num 2 1) (.var 0))) (.add (.add (.add (.sub (.neg (.num 6 1)) (.var 1)) (.mul (.num 17 1) (.pow (.var 1) 2))) (.mul (.num 16 1) (.pow (.var 1) 3))) (.mul (.num 4 1) (.pow (.var 1) 4)))))))))) (.mul (.mul (.pow (.add (.num 1 1) (.var 1)) 2) (.hpow (.add (.var 1) (.mul (.mul (.num 2 1) (.var 0)) (.var 1))) 1)) (.add (.add (.add (.num 6 1) (.mul (.num 19 1) (.var 1))) (.mul (.num 16 1) (.pow (.var 1) 2))) (.mul (.num 4 1) (.pow (.var 1) 3))))),
  .neg (.div (.mul (.sqrt (.num 2 1)) (.add (.add (.mul (.num 6 1) (.sqrt (.mul (.var 1) (.add (.add (.neg (.num 3 1)) (.mul (.num 4 1) (.var 1))) (.mul (.num 4 1) (.pow (.var 1) 2)))))) (.mul (.num 7 1) (.sqrt (.mul (.pow (.var 1) 3) (.add (.add (.neg (.num 3 1)) (.mul (.num 4 1) (.var 1))) (.mul (.num 4 1) (.pow (.var 1) 2))))))) (.mul (.num 2 1) (.sqrt (.mul (.pow (.var 1) 5) (.add (.add (.neg (.num 3 1)) (.mul (.num 4 1) (.var 1))) (.mul (.num 4 1) (.pow (.var 1) 2)))))))) (.mul (.mul (.mul (.mul (.add (.num 1 1) (.mul (.num 2 1) (.var 0))) (.var 1)) (.add (.num 2 1) (.var 1))) (.add (.num 3 1) (.mul (.num 2 1) (.var 1)))) (.sqrt (.add (.add (.add (.num 3 1) (.mul (.num 11 1) (.var 1))) (.mul (.num 12 1) (.pow (.var 1) 2))) (.mul (.num 4 1) (.pow (.var 1) 3)))))),
  .neg (.div (.add (.add (.add (.mul (.num 18 1) (.sqrt (.div (.mul (.var 1) (.add (.neg (.num 1 1)) (.mul (.num 2 1) (.var 1)))) (.add (.add (.num 6 1) (.mul (.num 7 1) (.var 1))) (.mul (.num 2 1) (.pow (.var 1) 2)))))) (.mul (.num 2 1) (.sqrt (.div (.mul (.var 1) (.add (.add (.neg (.num 3 1)) (.mul (.num 4 1) (.var 1))) (.mul (.num 4 1) (.pow (.var 1) 2)))) (.add (.num 2 1) (.var 1)))))) (.sqrt (.mul (.var 1) (.add (.add (.add (.neg (.num 6 1)) (.mul (.num 5 1) (.var 1))) (.mul (.num 12 1) (.pow (.var 1) 2))) (.mul (.num 4 1) (.pow (.var 1) 3)))))) (.mul (.mul (.num 2 1) (.var 1)) (.add (.add (.mul (.num 6 1) (.sqrt (.div (.mul (.var 1) (.add (.neg (.num 1 1)) (.mul (.num 2 1) (.var 1)))) (.add (.add (.num 6 1) (.mul (.num 7 1) (.var 1))) (.mul (.num 2 1) (.pow (.var 1) 2)))))) (.mul (.num 2 1) (.sqrt (.div (.mul (.var 1) (.add (.add (.neg (.num 3 1)) (.mul (.num 4 1) (.var 1))) (.mul (.num 4 1) (.pow (.var 1) 2)))) (.add (.num 2 1) (.var 1)))))) (.sqrt (.mul (.var 1) (.add (.add (.add (.neg (.num 6 1)) (.mul (.num 5 1) (.var 1))) (.mul (.num 12 1) (.pow (.var 1) 2))) (.mul (.num 4 1) (.pow (.var 1) 3)))))))) (.mul (.add (.num 3 1) (.mul (.num 2 1) (.var 1))) (.sqrt (.mul (.var 1) (.add (.add (.add (.num 10 1) (.mul (.num 29 1) (.var 1))) (.mul (.num 20 1) (.pow (.var 1) 2))) (.mul (.num 4 1) (.pow (.var 1) 3))))))),
  .neg (.div (.add (.add (.add (.mul (.num 18 1) (.sqrt (.div (.mul (.var 1) (.add (.neg (.num 1 1)) (.mul (.num 2 1) (.var 1)))) (.add (.add (.num 6 1) (.mul (.num 7 1) (.var 1))) (.mul (.num 2 1) (.pow (.var 1) 2)))))) (.mul (.num 2 1) (.sqrt (.div (.mul (.var 1) (.add (.add (.neg (.num 3 1)) (.mul (.num 4 1) (.var 1))) (.mul (.num 4 1) (.pow (.var 1) 2)))) (.add (.num 2 1) (.var 1)))))) (.sqrt (.mul (.var 1) (.add (.add (.add (.neg (.num 6 1)) (.mul (.num 5 1) (.var 1))) (.mul (.num 12 1) (.pow (.var 1) 2))) (.mul (.num 4 1) (.pow (.var 1) 3)))))) (.mul (.mul (.num 2 1) (.var 1)) (.add (.add (.mul (.num 6 1) (.sqrt (.div (.mul (.var 1) (.add (.neg (.num 1 1)) (.mul (.num 2 1) (.var 1)))) (.add (.add (.num 6 1) (.mul (.num 7 1) (.var 1))) (.mul (.num 2 1) (.pow (.var 1) 2)))))) (.mul (.num 2 1) (.sqrt (.div (.mul (.var 1) (.add (.add (.neg (.num 3 1)) (.mul (.num 4 1) (.var 1))) (.mul (.num 4 1) (.pow (.var 1) 2)))) (.add (.num 2 1) (.var 1)))))) (.sqrt (.mul (.var 1) (.add (.add (.add (.neg (.num 6 1)) (.mul (.num 5 1) (.var 1))) (.mul (.num 12 1) (.pow (.var 1) 2))) (.mul (.num 4 1) (.pow (.var 1) 3)))))))) (.mul (.mul (.add (.num 1 1) (.mul (.num 2 1) (.var 0))) (.add (.num 3 1) (.mul (.num 2 1) (.var 1)))) (.sqrt (.mul (.var 1) (.add (.add (.add (.num 10 1) (.mul (.num 29 1) (.var 1))) (.mul (.num 20 1) (.pow (.var 1) 2))) (.mul (.num 4 1) (.pow (.var 1) 3))))))),
  .div (.mul (.mul (.neg (.num 2 1)) (.sqrt (.num 6 1))) (.sqrt (.div (.add (.var 0) (.pow (.var 0) 2)) (.add (.sub (.sub (.var 1) (.pow (.var 1) 2)) (.mul (.num 4 1) (.pow (.var 1) 3))) (.mul (.num 4 1) (.pow (.var 1) 4)))))) (.add (.num 1 1) (.mul (.num 2 1) (.var 0))),
  .sub (.sub (.sub (.neg (.div (.mul (.add (.neg (.num 2 1)) (.var 1)) (.add (.neg (.num 1 1)) (.var 1))) (.sqrt (.div (.mul (.mul (.mul (.add (.num 1 1) (.var 0)) (.add (.neg (.num 2 1)) (.var 1))) (.var 1)) (.add (.neg (.num 1 1)) (.pow (.var 1) 2))) (.var 0))))) (.div (.mul (.add (.neg (.num 2 1)) (.var 1)) (.add (.neg (.num 1 1)) (.var 1))) (.sqrt (.div (.mul (.mul (.mul (.mul (.add (.num 1 1) (.var 0)) (.pow (.add (.num 1 1) (.mul (.num 2 1) (.var 0))) 2)) (.add (.neg (.num 2 1)) (.var 1))) (.var 1)) (.add (.neg (.num 1 1)) (.pow (.var 1) 2))) (.var 0))))) (.mul (.num 2 1) (.sqrt (.div (.mul (.var 0) (.add (.neg (.num 2 1)) (.var 1))) (.mul (.add (.num 1 1) (.var 0)) (.add (.neg (.var 1)) (.pow (.var 1) 3))))))) (.div (.mul (.num 2 1) (.sqrt (.div (.mul (.var 0) (.add (.neg (.num 2 1)) (.var 1))) (.mul (.add (.num 1 1) (.var 0)) (.add (.neg (.var 1)) (.pow (.var 1) 3)))))) (.add (.num 1 1) (.mul (.num 2 1) (.var 0)))),
  .div (.mul (.mul (.mul (.neg (.num 2 1)) (.sqrt (.num 3 1))) (.add (.num 1 1) (.var 0))) (.add (.sub (.add (.mul (.num 2 1) (.sqrt (.div (.mul (.var 0) (.add (.neg (.num 3 1)) (.mul (.num 2 1) (.var 1)))) (.mul (.add (.num 1 1) (.var 0)) (.add (.add (.sub (.neg (.num 1 1)) (.mul (.num 2 1) (.var 1))) (.pow (.var 1) 2)) (.mul (.num 2 1) (.pow (.var 1) 3))))))) (.mul (.num 3 1) (.sqrt (.div (.var 0) (.mul (.add (.num 1 1) (.var 0)) (.add (.sub (.sub (.add (.num 3 1) (.mul (.num 4 1) (.var 1))) (.mul (.num 7 1) (.pow (.var 1) 2))) (.mul (.num 4 1) (.pow (.var 1) 3))) (.mul (.num 4 1) (.pow (.var 1) 4)))))))) (.mul (.mul (.num 5 1) (.var 1)) (.sqrt (.div (.var 0) (.mul (.add (.num 1 1) (.var 0)) (.add (.sub (.sub (.add (.num 3 1) (.mul (.num 4 1) (.var 1))) (.mul (.num 7 1) (.pow (.var 1) 2))) (.mul (.num 4 1) (.pow (.var 1) 3))) (.mul (.num 4 1) (.pow (.var 1) 4)))))))) (.mul (.mul (.num 2 1) (.pow (.var 1) 2)) (.sqrt (.div (.var 0) (.mul (.add (.num 1 1) (.var 0)) (.add (.sub (.sub (.add (.num 3 1) (.mul (.num 4 1) (.var 1))) (.mul (.num 7 1) (.pow (.var 1) 2))) (.mul (.num 4 1) (.pow (.var 1) 3))) (.mul (.num 4 1) (.pow (.var 1) 4))))))))) (.add (.var 1) (.mul (.mul (.num 2 1) (.var 0)) (.var 1))),
  .sub (.sub (.sub (.sub (.sub (.mul (.mul (.mul (.neg (.num 3 1)) (.add (.neg (.num 3 1)) (.mul (.num 2 1) (.var 1)))) (.add (.neg (.num 1 1)) (.mul (.num 2 1) (.var 1)))) (.sqrt (.div (.mul (.var 0) (.add (.neg (.num 1 1)) (.var 1))) (.mul (.mul (.mul (.add (.num 1 1) (.var 0)) (.pow (.var 1) 2)) (.add (.sub (.neg (.num 3 1)) (.mul (.num 4 1) (.var 1))) (.mul (.num 4 1) (.pow (.var 1) 2)))) (.add (.add (.add (.neg (.num 3 1)) (.var 1)) (.mul (.num 8 1) (.pow (.var 1) 2))) (.mul (.num 4 1) (.pow (.var 1) 3))))))) (.mul (.mul (.mul (.num 3 1) (.add (.neg (.num 3 1)) (.mul (.num 2 1) (.var 1)))) (.add (.neg (.num 1 1)) (.mul (.num 2 1) (.var 1)))) (.sqrt (.div (.mul (.var 0) (.add (.neg (.num 1 1)) (.var 1))) (.mul (.mul (.mul (.add (.num 1 1) (.var 0)) (.pow (.add (.var 1) (.mul (.mul (.num 2 1) (.var 0)) (.var 1))) 2)) (.add (.sub (.neg (.num 3 1)) (.mul (.num 4 1) (.var 1))) (.mul (.num 4 1) (.pow (.var 1) 2)))) (.add (.add (.add (.neg (.num 3 1)) (.var 1)) (.mul (.num 8 1) (.pow (.var 1) 2))) (.mul (.num 4 1) (.pow (.var 1) 3)))))))) (.div (.mul (.num 6 1) (.sqrt (.div (.mul (.var 0) (.add (.sub (.num 3 1) (.mul (.num 5 1) (.var 1))) (.mul (.num 2 1) (.pow (.var 1) 2)))) (.mul (.add (.num 1 1) (.var 0)) (.add (.add (.add (.sub (.neg (.num 3 1)) (.mul (.num 5 1) (.var 1))) (.mul (.num 10 1) (.pow (.var 1) 2))) (.mul (.num 20 1) (.pow (.var 1) 3))) (.mul (.num 8 1) (.pow (.var 1) 4))))))) (.var 1))) (.div (.mul (.num 6 1) (.sqrt (.div (.mul (.var 0) (.add (.sub (.num 3 1) (.mul (.num 5 1) (.var 1))) (.mul (.num 2 1) (.pow (.var 1) 2)))) (.mul (.add (.num 1 1) (.var 0)) (.add (.add (.add (.sub (.neg (.num 3 1)) (.mul (.num 5 1) (.var 1))) (.mul (.num 10 1) (.pow (.var 1) 2))) (.mul (.num 20 1) (.pow (.var 1) 3))) (.mul (.num 8 1) (.pow (.var 1) 4))))))) (.add (.var 1) (.mul (.mul (.num 2 1) (.var 0)) (.var 1))))) (.mul (.mul (.add (.neg (.num 1 1)) (.mul (.num 2 1) (.var 1))) (.add (.sub (.num 3 1) (.mul (.num 5 1) (.var 1))) (.mul (.num 2 1) (.pow (.var 1) 2)))) (.sqrt (.div (.var 0) (.mul (.mul (.add (.num 1 1) (.var 0)) (.pow (.add (.num 1 1) (.mul (.num 2 1) (.var 0))) 2)) (.add (.sub (.add (.neg (.num 9 1)) (.mul (.num 49 1) (.pow (.var 1) 2))) (.mul (.num 56 1) (.pow (.var 1) 4))) (.mul (.num 16 1) (.pow (.var 1) 6)))))))) (.div (.mul (.add (.neg (.num 1 1)) (.mul (.num 2 1) (.var 1))) (.add (.sub (.num 3 1) (.mul (.num 5 1) (.var 1))) (.mul (.num 2 1) (.pow (.var 1) 2)))) (.sqrt (.div (.mul (.add (.num 1 1) (.var 0)) (.add (.sub (.add (.neg (.num 9 1)) (.mul (.num 49 1) (.pow (.var 1) 2))) (.mul (.num 56 1) (.pow (.var 1) 4))) (.mul (.num 16 1) (.pow (.var 1) 6)))) (.var 0)))),
  .mul (.sqrt (.num 3 1)) (.sub (.sub (.sub (.sub (.sub (.div (.mul (.neg (.num 6 1)) (.sqrt (.div (.mul (.var 0) (.add (.neg (.num 1 1)) (.var 1))) (.mul (.mul (.add (.num 1 1) (.var 0)) (.pow (.add (.num 1 1) (.var 1)) 3)) (.add (.add (.num 3 1) (.mul (.num 8 1) (.var 1))) (.mul (.num 4 1) (.pow (.var 1) 2))))))) (.var 1)) (.mul (.mul (.mul (.num 3 1) (.add (.neg (.num 1 1)) (.var 1))) (.add (.neg (.num 1 1)) (.mul (.num 2 1) (.var 1)))) (.sqrt (.div (.var 0) (.mul (.mul (.mul (.add (.num 1 1) (.var 0)) (.pow (.var 1) 2)) (.pow (.add (.num 1 1) (.var 1)) 3)) (.add (.add (.sub (.neg (.num 3 1)) (.mul (.num 5 1) (.var 1))) (.mul (.num 4 1) (.pow (.var 1) 2))) (.mul (.num 4 1) (.pow (.var 1) 3)))))))) (.mul (.mul (.mul (.num 3 1) (.add (.neg (.num 1 1)) (.var 1))) (.add (.neg (.num 1 1)) (.mul (.num 2 1) (.var 1)))) (.sqrt (.div (.var 0) (.mul (.mul (.mul (.add (.num 1 1) (.var 0)) (.pow (.add (.num 1 1) (.var 1)) 3)) (.pow (.add (.var 1) (.mul (.mul (.num 2 1) (.var 0)) (.var 1))) 2)) (.add (.add (.sub (.neg (.num 3 1)) (.mul (.num 5 1) (.var 1))) (.mul (.num 4 1) (.pow (.var 1) 2))) (.mul (.num 4 1) (.pow (.var 1) 3)))))))) (.div (.mul (.num 6 1) (.sqrt (.div (.mul (.var 0) (.add (.neg (.num 1 1)) (.var 1))) (.mul (.add (.num 1 1) (.var 0)) (.add (.add (.add (.num 3 1) (.mul (.num 11 1) (.var 1))) (.mul (.num 12 1) (.pow (.var 1) 2))) (.mul (.num 4 1) (.pow (.var 1) 3))))))) (.mul (.add (.num 1 1) (.var 1)) (.add (.var 1) (.mul (.mul (.num 2 1) (.var 0)) (.var 1)))))) (.div (.mul (.mul (.add (.neg (.num 1 1)) (.var 1)) (.hpow (.add (.neg (.num 1 1)) (.mul (.num 2 1) (.var 1))) 1)) (.sqrt (.div (.var 0) (.mul (.add (.num 1 1) (.var 0)) (.add (.add (.sub (.sub (.add (.num 3 1) (.mul (.num 2 1) (.var 1))) (.mul (.num 15 1) (.pow (.var 1) 2))) (.mul (.num 10 1) (.pow (.var 1) 3))) (.mul (.num 12 1) (.pow (.var 1) 4))) (.mul (.num 8 1) (.pow (.var 1) 5))))))) (.add (.num 1 1) (.var 1)))) (.div (.mul (.mul (.add (.neg (.num 1 1)) (.var 1)) (.hpow (.add (.neg (.num 1 1)) (.mul (.num 2 1) (.var 1))) 1)) (.sqrt (.div (.var 0) (.mul (.add (.num 1 1) (.var 0)) (.add (.add (.sub (.sub (.add (.num 3 1) (.mul (.num 2 1) (.var 1))) (.mul (.num 15 1) (.pow (.var 1) 2))) (.mul (.num 10 1) (.pow (.var 1) 3))) (.mul (.num 12 1) (.pow (.var 1) 4))) (.mul (.num 8 1) (.pow (.var 1) 5))))))) (.mul (.add (.num 1 1) (.mul (.num 2 1) (.var 0))) (.add (.num 1 1) (.var 1))))),
  .mul (.sqrt (.num 6 1)) (.sub (.sub (.sub (.sub (.add (.mul (.neg (.num 6 1)) (.sqrt (.div (.var 0) (.mul (.mul (.add (.num 1 1) (.var 0)) (.add (.var 1) (.mul (.num 2 1) (.pow (.var 1) 2)))) (.pow (.add (.add (.num 3 1) (.mul (.num 5 1) (.var 1))) (.mul (.num 2 1) (.pow (.var 1) 2))) 3))))) (.mul (.mul (.num 3 1) (.sub (.num 1 1) (.mul (.num 2 1) (.var 1)))) (.sqrt (.div (.var 0) (.mul (.mul (.add (.num 1 1) (.var 0)) (.add (.var 1) (.mul (.num 2 1) (.pow (.var 1) 2)))) (.pow (.add (.add (.num 3 1) (.mul (.num 5 1) (.var 1))) (.mul (.num 2 1) (.pow (.var 1) 2))) 3)))))) (.div (.mul (.mul (.var 1) (.add (.neg (.num 1 1)) (.mul (.num 2 1) (.var 1)))) (.sqrt (.div (.var 0) (.mul (.mul (.add (.num 1 1) (.var 0)) (.var 1)) (.add (.add (.add (.num 3 1) (.mul (.num 11 1) (.var 1))) (.mul (.num 12 1) (.pow (.var 1) 2))) (.mul (.num 4 1) (.pow (.var 1) 3))))))) (.add (.add (.num 3 1) (.mul (.num 5 1) (.var 1))) (.mul (.num 2 1) (.pow (.var 1) 2))))) (.div (.mul (.num 6 1) (.sqrt (.div (.var 0) (.mul (.mul (.mul (.add (.num 1 1) (.var 0)) (.pow (.add (.num 1 1) (.mul (.num 2 1) (.var 0))) 2)) (.var 1)) (.add (.add (.add (.num 3 1) (.mul (.num 11 1) (.var 1))) (.mul (.num 12 1) (.pow (.var 1) 2))) (.mul (.num 4 1) (.pow (.var 1) 3))))))) (.add (.add (.num 3 1) (.mul (.num 5 1) (.var 1))) (.mul (.num 2 1) (.pow (.var 1) 2))))) (.div (.mul (.mul (.num 3 1) (.hpow (.add (.neg (.num 1 1)) (.mul (.num 2 1) (.var 1))) 1)) (.sqrt (.div (.var 0) (.mul (.mul (.add (.num 1 1) (.var 0)) (.var 1)) (.add (.add (.add (.sub (.neg (.num 3 1)) (.mul (.num 5 1) (.var 1))) (.mul (.num 10 1) (.pow (.var 1) 2))) (.mul (.num 20 1) (.pow (.var 1) 3))) (.mul (.num 8 1) (.pow (.var 1) 4))))))) (.mul (.add (.num 1 1) (.mul (.num 2 1) (.var 0))) (.add (.add (.num 3 1) (.mul (.num 5 1) (.var 1))) (.mul (.num 2 1) (.pow (.var 1) 2)))))) (.div (.mul (.var 1) (.hpow (.add (.neg (.num 1 1)) (.mul (.num 2 1) (.var 1))) 1)) (.mul (.mul (.add (.num 1 1) (.mul (.num 2 1) (.var 0))) (.add (.add (.num 3 1) (.mul (.num 5 1) (.var 1))) (.mul (.num 2 1) (.pow (.var 1) 2)))) (.sqrt (.div (.mul (.mul (.add (.num 1 1) (.var 0)) (.var 1)) (.add (.add (.add (.sub (.neg (.num 3 1)) (.mul (.num 5 1) (.var 1))) (.mul (.num 10 1) (.pow (.var 1) 2))) (.mul (.num 20 1) (.pow (.var 1) 3))) (.mul (.num 8 1) (.pow (.var 1) 4)))) (.var 0)))))),
  .sub (.sub (.sub (.sub (.sub (.sub (.sub (.div (.mul (.neg (.num 6 1)) (.sqrt (.div (.mul (.var 0) (.add (.sub (.num 1 1) (.mul (.num 3 1) (.var 1))) (.mul (.num 2 1) (.pow (.var 1) 2)))) (.mul (.mul (.mul (.add (.num 1 1) (.var 0)) (.var 1)) (.pow (.add (.num 1 1) (.var 1)) 3)) (.add (.add (.num 6 1) (.mul (.num 7 1) (.var 1))) (.mul (.num 2 1) (.pow (.var 1) 2))))))) (.add (.num 1 1) (.mul (.num 2 1) (.var 1)))) (.div (.mul (.add (.neg (.num 1 1)) (.var 1)) (.var 1)) (.sqrt (.div (.mul (.mul (.mul (.add (.num 1 1) (.var 0)) (.var 1)) (.add (.neg (.num 1 1)) (.pow (.var 1) 2))) (.add (.add (.num 6 1) (.mul (.num 7 1) (.var 1))) (.mul (.num 2 1) (.pow (.var 1) 2)))) (.mul (.var 0) (.add (.neg (.num 1 1)) (.mul (.num 2 1) (.var 1)))))))) (.div (.mul (.add (.neg (.num 1 1)) (.var 1)) (.var 1)) (.sqrt (.div (.mul (.mul (.mul (.mul (.add (.num 1 1) (.var 0)) (.pow (.add (.num 1 1) (.mul (.num 2 1) (.var 0))) 2)) (.var 1)) (.add (.neg (.num 1 1)) (.pow (.var 1) 2))) (.add (.add (.num 6 1) (.mul (.num 7 1) (.var 1))) (.mul (.num 2 1) (.pow (.var 1) 2)))) (.mul (.var 0) (.add (.neg (.num 1 1)) (.mul (.num 2 1) (.var 1)))))))) (.mul (.mul (.mul (.num 3 1) (.add (.neg (.num 1 1)) (.var 1))) (.var 1)) (.sqrt (.div (.mul (.var 0) (.add (.neg (.num 1 1)) (.mul (.num 2 1) (.var 1)))) (.mul (.mul (.mul (.add (.num 1 1) (.var 0)) (.var 1)) (.pow (.add (.num 1 1) (.var 1)) 3)) (.add (.add (.sub (.neg (.num 6 1)) (.var 1)) (.mul (.num 5 1) (.pow (.var 1) 2))) (.mul (.num 2 1) (.pow (.var 1) 3)))))))) (.mul (.mul (.mul (.num 3 1) (.add (.neg (.num 1 1)) (.var 1))) (.var 1)) (.sqrt (.div (.mul (.var 0) (.add (.neg (.num 1 1)) (.mul (.num 2 1) (.var 1)))) (.mul (.mul (.mul (.mul (.add (.num 1 1) (.var 0)) (.pow (.add (.num 1 1) (.mul (.num 2 1) (.var 0))) 2)) (.var 1)) (.pow (.add (.num 1 1) (.var 1)) 3)) (.add (.add (.sub (.neg (.num 6 1)) (.var 1)) (.mul (.num 5 1) (.pow (.var 1) 2))) (.mul (.num 2 1) (.pow (.var 1) 3)))))))) (.div (.mul (.mul (.num 9 1) (.var 1)) (.sqrt (.div (.mul (.mul (.var 0) (.add (.neg (.num 1 1)) (.var 1))) (.add (.neg (.num 1 1)) (.mul (.num 2 1) (.var 1)))) (.mul (.mul (.add (.num 1 1) (.var 0)) (.var 1)) (.add (.add (.add (.num 6 1) (.mul (.num 13 1) (.var 1))) (.mul (.num 9 1) (.pow (.var 1) 2))) (.mul (.num 2 1) (.pow (.var 1) 3))))))) (.add (.add (.num 1 1) (.mul (.num 3 1) (.var 1))) (.mul (.num 2 1) (.pow (.var 1) 2))))) (.div (.mul (.num 6 1) (.sqrt (.div (.mul (.var 0) (.add (.sub (.num 1 1) (.mul (.num 3 1) (.var 1))) (.mul (.num 2 1) (.pow (.var 1) 2)))) (.mul (.mul (.add (.num 1 1) (.var 0)) (.var 1)) (.add (.add (.add (.num 6 1) (.mul (.num 13 1) (.var 1))) (.mul (.num 9 1) (.pow (.var 1) 2))) (.mul (.num 2 1) (.pow (.var 1) 3))))))) (.mul (.add (.num 1 1) (.var 1)) (.add (.add (.add (.num 1 1) (.mul (.num 2 1) (.var 0))) (.mul (.num 2 1) (.var 1))) (.mul (.mul (.num 4 1) (.var 0)) (.var 1)))))) (.div (.mul (.mul (.num 9 1) (.add (.neg (.num 1 1)) (.var 1))) (.sqrt (.div (.mul (.mul (.var 0) (.var 1)) (.add (.neg (.num 1 1)) (.mul (.num 2 1) (.var 1)))) (.mul (.mul (.mul (.add (.num 1 1) (.var 0)) (.pow (.add (.num 1 1) (.mul (.num 2 1) (.var 0))) 2)) (.pow (.add (.num 1 1) (.mul (.num 2 1) (.var 1))) 2)) (.add (.add (.add (.sub (.neg (.num 6 1)) (.mul (.num 7 1) (.var 1))) (.mul (.num 4 1) (.pow (.var 1) 2))) (.mul (.num 7 1) (.pow (.var 1) 3))) (.mul (.num 2 1) (.pow (.var 1) 4))))))) (.add (.num 1 1) (.var 1))),
  .mul (.mul (.mul (.sqrt (.num 2 1)) (.var 1)) (.sqrt (.div (.mul (.add (.num 1 1) (.mul (.num 2 1) (.var 0))) (.add (.num 1 1) (.mul (.num 2 1) (.var 1)))) (.mul (.mul (.mul (.mul (.pow (.add (.num 1 1) (.var 0)) 5) (.pow (.var 1) 5)) (.pow (.add (.num 1 1) (.var 1)) 4)) (.pow (.add (.num 2 1) (.var 1)) 5)) (.pow (.add (.num 3 1) (.mul (.num 2 1) (.var 1))) 6))))) (.sub (.sub (.sub (.sub (.sub (.sub (.sub (.div (.mul (.mul (.mul (.mul (.mul (.mul (.neg (.num 3 1)) (.pow (.add (.num 1 1) (.var 0)) 2)) (.pow (.var 1) 2)) (.add (.num 1 1) (.var 1))) (.pow (.add (.num 2 1) (.var 1)) 2)) (.pow (.add (.num 3 1) (.mul (.num 2 1) (.var 1))) 2)) (.sqrt (.div (.mul (.var 0) (.add (.neg (.num 1 1)) (.mul (.num 2 1) (.var 1)))) (.add (.add (.num 2 1) (.mul (.num 3 1) (.var 1))) (.pow (.var 1) 2))))) (.hpow (.add (.num 1 1) (.mul (.num 2 1) (.var 0))) 1)) (.sqrt (.div (.mul (.mul (.mul (.mul (.mul (.var 0) (.pow (.add (.num 1 1) (.var 0)) 4)) (.pow (.var 1) 4)) (.add (.neg (.num 1 1)) (.mul (.num 2 1) (.var 1)))) (.pow (.add (.num 3 1) (.mul (.num 2 1) (.var 1))) 4)) (.pow (.add (.add (.num 2 1) (.mul (.num 3 1) (.var 1))) (.pow (.var 1) 2)) 3)) (.pow (.add (.num 1 1) (.mul (.num 2 1) (.var 0))) 3)))) (.sqrt (.div (.mul (.mul (.mul (.mul (.mul (.var 0) (.pow (.add (.num 1 1) (.var 0)) 4)) (.pow (.var 1) 4)) (.add (.neg (.num 1 1)) (.mul (.num 2 1) (.var 1)))) (.pow (.add (.num 3 1) (.mul (.num 2 1) (.var 1))) 4)) (.pow (.add (.add (.num 2 1) (.mul (.num 3 1) (.var 1))) (.pow (.var 1) 2)) 3)) (.add (.num 1 1) (.mul (.num 2 1) (.var 0)))))) (.mul (.num 3 1) (.sqrt (.div (.mul (.mul (.mul (.mul (.mul (.var 0) (.pow (.add (.num 1 1) (.var 0)) 4)) (.pow (.var 1) 4)) (.pow (.add (.num 2 1) (.var 1)) 3)) (.pow (.add (.num 3 1) (.mul (.num 2 1) (.var 1))) 4)) (.add (.add (.neg (.num 1 1)) (.var 1)) (.mul (.num 2 1) (.pow (.var 1) 2)))) (.add (.num 1 1) (.mul (.num 2 1) (.var 0))))))) (.mul (.num 9 1) (.sqrt (.div (.mul (.mul (.mul (.mul (.mul (.var 0) (.pow (.add (.num 1 1) (.var 0)) 4)) (.pow (.var 1) 4)) (.pow (.add (.num 2 1) (.var 1)) 3)) (.pow (.add (.num 3 1) (.mul (.num 2 1) (.var 1))) 4)) (.add (.add (.neg (.num 1 1)) (.var 1)) (.mul (.num 2 1) (.pow (.var 1) 2)))) (.mul (.add (.num 1 1) (.mul (.num 2 1) (.var 0))) (.pow (.add (.num 1 1) (.mul (.num 2 1) (.var 1))) 2)))))) (.div (.mul (.mul (.mul (.mul (.mul (.num 6 1) (.pow (.add (.num 1 1) (.var 0)) 2)) (.var 1)) (.add (.num 1 1) (.var 1))) (.sqrt (.div (.mul (.var 0) (.add (.neg (.num 1 1)) (.mul (.num 2 1) (.var 1)))) (.add (.add (.num 2 1) (.mul (.num 3 1) (.var 1))) (.pow (.var 1) 2))))) (.pow (.add (.add (.num 6 1) (.mul (.num 7 1) (.var 1))) (.mul (.num 2 1) (.pow (.var 1) 2))) 2)) (.mul (.hpow (.add (.num 1 1) (.mul (.num 2 1) (.var 0))) 1) (.add (.num 1 1) (.mul (.num 2 1) (.var 1)))))) (.div (.mul (.mul (.mul (.mul (.mul (.num 9 1) (.pow (.add (.num 1 1) (.var 0)) 2)) (.pow (.var 1) 2)) (.add (.num 1 1) (.var 1))) (.sqrt (.div (.mul (.var 0) (.add (.neg (.num 1 1)) (.mul (.num 2 1) (.var 1)))) (.add (.add (.num 2 1) (.mul (.num 3 1) (.var 1))) (.pow (.var 1) 2))))) (.pow (.add (.add (.num 6 1) (.mul (.num 7 1) (.var 1))) (.mul (.num 2 1) (.pow (.var 1) 2))) 2)) (.mul (.hpow (.add (.num 1 1) (.mul (.num 2 1) (.var 0))) 1) (.add (.num 1 1) (.mul (.num 2 1) (.var 1)))))) (.div (.mul (.mul (.mul (.mul (.mul (.num 6 1) (.pow (.add (.num 1 1) (.var 0)) 2)) (.var 1)) (.add (.num 1 1) (.var 1))) (.sqrt (.div (.mul (.var 0) (.add (.neg (.num 1 1)) (.mul (.num 2 1) (.var 1)))) (.mul (.add (.num 1 1) (.mul (.num 2 1) (.var 0))) (.add (.add (.num 2 1) (.mul (.num 3 1) (.var 1))) (.pow (.var 1) 2)))))) (.pow (.add (.add (.num 6 1) (.mul (.num 7 1) (.var 1))) (.mul (.num 2 1) (.pow (.var 1) 2))) 2)) (.add (.num 1 1) (.mul (.num 2 1) (.var 1))))),
  .div (.mul (.neg (.num 1 2)) (.add (.add (.add (.add (.add (.add (.add (.add (.add (.mul (.num 12 1) (.sqrt (.div (.mul (.mul (.mul (.mul (.mul (.var 0) (.add (.num 1 1) (.var 0))) (.add (.num 1 1) (.mul (.num 2 1) (.var 0)))) (.var 1)) (.add (.neg (.num 1 1)) (.mul (.num 2 1) (.var 1)))) (.add (.num 5 1) (.mul (.num 2 1) (.var 1)))) (.mul (.add (.num 1 1) (.mul (.num 2 1) (.var 1))) (.add (.add (.num 6 1) (.mul (.num 7 1) (.var 1))) (.mul (.num 2 1) (.pow (.var 1) 2))))))) (.mul (.mul (.num 12 1) (.add (.num 1 1) (.var 1))) (.sqrt (.div (.mul (.mul (.mul (.mul (.mul (.var 0) (.add (.num 1 1) (.var 0))) (.var 1)) (.add (.neg (.num 1 1)) (.mul (.num 2 1) (.var 1)))) (.add (.num 1 1) (.mul (.num 2 1) (.var 1)))) (.add (.num 5 1) (.mul (.num 2 1) (.var 1)))) (.mul (.add (.num 1 1) (.mul (.num 2 1) (.var 0))) (.add (.add (.num 6 1) (.mul (.num 7 1) (.var 1))) (.mul (.num 2 1) (.pow (.var 1) 2)))))))) (.mul (.num 12 1) (.sqrt (.div (.mul (.mul (.mul (.mul (.mul (.mul (.var 0) (.add (.num 1 1) (.var 0))) (.add (.num 1 1) (.mul (.num 2 1) (.var 0)))) (.var 1)) (.add (.neg (.num 1 1)) (.mul (.num 2 1) (.var 1)))) (.add (.num 1 1) (.mul (.num 2 1) (.var 1)))) (.add (.num 5 1) (.mul (.num 2 1) (.var 1)))) (.add (.add (.num 6 1) (.mul (.num 7 1) (.var 1))) (.mul (.num 2 1) (.pow (.var 1) 2))))))) (.mul (.mul (.num 12 1) (.add (.num 1 1) (.var 1))) (.sqrt (.div (.mul (.mul (.mul (.mul (.mul (.mul (.var 0) (.add (.num 1 1) (.var 0))) (.add (.num 1 1) (.mul (.num 2 1) (.var 0)))) (.var 1)) (.add (.neg (.num 1 1)) (.mul (.num 2 1) (.var 1)))) (.add (.num 1 1) (.mul (.num 2 1) (.var 1)))) (.add (.num 5 1) (.mul (.num 2 1) (.var 1)))) (.add (.add (.num 6 1) (.mul (.num 7 1) (.var 1))) (.mul (.num 2 1) (.pow (.var 1) 2))))))) (.mul (.num 12 1) (.sqrt (.div (.mul (.mul (.mul (.mul (.var 0) (.add (.num 1 1) (.var 0))) (.var 1)) (.add (.num 1 1) (.mul (.num 2 1) (.var 1)))) (.add (.add (.neg (.num 5 1)) (.mul (.num 8 1) (.var 1))) (.mul (.num 4 1) (.pow (.var 1) 2)))) (.mul (.add (.num 1 1) (.mul (.num 2 1) (.var 0))) (.add (.add (.num 6 1) (.mul (.num 7 1) (.var 1))) (.mul (.num 2 1) (.pow (.var 1) 2)))))))) (.mul (.mul (.num 4 1) (.add (.num 1 1) (.var 1))) (.sqrt (.div (.mul (.mul (.mul (.mul (.mul (.var 0) (.add (.num 1 1) (.var 0))) (.var 1)) (.add (.neg (.num 1 1)) (.mul (.num 2 1) (.var 1)))) (.add (.num 1 1) (.mul (.num 2 1) (.var 1)))) (.add (.add (.num 15 1) (.mul (.num 16 1) (.var 1))) (.mul (.num 4 1) (.pow (.var 1) 2)))) (.mul (.add (.num 1 1) (.mul (.num 2 1) (.var 0))) (.add (.num 2 1) (.var 1))))))) (.mul (.mul (.num 4 1) (.add (.num 1 1) (.var 1))) (.sqrt (.div (.mul (.mul (.mul (.mul (.mul (.mul (.var 0) (.add (.num 1 1) (.var 0))) (.add (.num 1 1) (.mul (.num 2 1) (.var 0)))) (.var 1)) (.add (.neg (.num 1 1)) (.mul (.num 2 1) (.var 1)))) (.add (.num 1 1) (.mul (.num 2 1) (.var 1)))) (.add (.add (.num 15 1) (.mul (.num 16 1) (.var 1))) (.mul (.num 4 1) (.pow (.var 1) 2)))) (.add (.num 2 1) (.var 1)))))) (.mul (.num 12 1) (.sqrt (.div (.mul (.mul (.mul (.var 0) (.add (.num 1 1) (.var 0))) (.var 1)) (.add (.add (.neg (.num 5 1)) (.mul (.num 8 1) (.var 1))) (.mul (.num 4 1) (.pow (.var 1) 2)))) (.mul (.add (.num 1 1) (.mul (.num 2 1) (.var 0))) (.add (.add (.add (.num 6 1) (.mul (.num 19 1) (.var 1))) (.mul (.num 16 1) (.pow (.var 1) 2))) (.mul (.num 4 1) (.pow (.var 1) 3)))))))) (.mul (.mul (.num 2 1) (.add (.num 1 1) (.var 1))) (.sqrt (.div (.mul (.mul (.mul (.mul (.mul (.var 0) (.add (.num 1 1) (.var 0))) (.var 1)) (.add (.neg (.num 1 1)) (.mul (.num 2 1) (.var 1)))) (.add (.num 1 1) (.mul (.num 2 1) (.var 1)))) (.add (.add (.add (.num 30 1) (.mul (.num 47 1) (.var 1))) (.mul (.num 24 1) (.pow (.var 1) 2))) (.mul (.num 4 1) (.pow (.var 1) 3)))) (.add (.num 1 1) (.mul (.num 2 1) (.var 0))))))) (.mul (.num 2 1) (.sqrt (.mul (.mul (.mul (.mul (.mul (.mul (.var 0) (.add (.num 1 1) (.var 0))) (.add (.num 1 1) (.mul (.num 2 1) (.var 0)))) (.var 1)) (.add (.neg (.num 1 1)) (.mul (.num 2 1) (.var 1)))) (.add (.add (.num 1 1) (.mul (.num 3 1) (.var 1))) (.mul (.num 2 1) (.pow (.var 1) 2)))) (.add (.add (.add (.add (.num 30 1) (.mul (.num 77 1) (.var 1))) (.mul (.num 71 1) (.pow (.var 1) 2))) (.mul (.num 28 1) (.pow (.var 1) 3))) (.mul (.num 4 1) (.pow (.var 1) 4)))))))) (.mul (.mul (.add (.num 1 1) (.var 0)) (.sqrt (.mul (.mul (.add (.num 1 1) (.mul (.num 2 1) (.var 0))) (.var 1)) (.add (.num 2 1) (.var 1))))) (.add (.add (.add (.num 15 1) (.mul (.num 31 1) (.var 1))) (.mul (.num 20 1) (.pow (.var 1) 2))) (.mul (.num 4 1) (.pow (.var 1) 3)))),
  .div (.num 1 1) (.sqrt (.mul (.var 0) (.add (.num 1 1) (.mul (.num 2 1) (.var 0))))),
  .div (.num 1 1) (.mul (.sqrt (.mul (.var 0) (.add (.num 1 1) (.mul (.num 2 1) (.var 0))))) (.var 1)),
  .div (.num 1 1) (.mul (.mul (.sqrt (.mul (.var 0) (.add (.num 1 1) (.mul (.num 2 1) (.var 0))))) (.var 1)) (.add (.num 1 1) (.mul (.num 2 1) (.var 1)))),
  .div (.num 1 1) (.mul (.var 1) (.sqrt (.div (.mul (.var 0) (.add (.num 1 1) (.mul (.num 2 1) (.var 0)))) (.add (.neg (.num 1 1)) (.pow (.var 1) 2))))),
  .div (.num 1 1) (.sqrt (.div (.mul (.mul (.mul (.var 0) (.add (.num 1 1) (.mul (.num 2 1) (.var 0)))) (.pow (.var 1) 2)) (.add (.num 1 1) (.mul (.num 2 1) (.var 1)))) (.add (.neg (.num 1 1)) (.mul (.num 2 1) (.var 1))))),
  .div (.add (.add (.sqrt (.mul (.mul (.mul (.var 1) (.add (.num 1 1) (.var 1))) (.add (.neg (.num 1 1)) (.mul (.num 2 1) (.var 1)))) (.add (.num 1 1) (.mul (.num 2 1) (.var 1))))) (.sqrt (.div (.mul (.var 1) (.add (.neg (.num 1 1)) (.mul (.num 2 1) (.var 1)))) (.add (.add (.num 1 1) (.mul (.num 3 1) (.var 1))) (.mul (.num 2 1) (.pow (.var 1) 2)))))) (.sqrt (.div (.mul (.var 1) (.add (.neg (.num 1 1)) (.mul (.num 4 1) (.pow (.var 1) 2)))) (.add (.num 1 1) (.var 1))))) (.sqrt (.mul (.mul (.var 1) (.add (.num 1 1) (.mul (.num 2 1) (.var 1)))) (.add (.add (.num 3 1) (.mul (.num 5 1) (.var 1))) (.mul (.num 2 1) (.pow (.var 1) 2))))),
  .div (.add (.add (.sqrt (.mul (.mul (.mul (.var 1) (.add (.num 1 1) (.var 1))) (.add (.neg (.num 1 1)) (.mul (.num 2 1) (.var 1)))) (.add (.num 1 1) (.mul (.num 2 1) (.var 1))))) (.sqrt (.div (.mul (.var 1) (.add (.neg (.num 1 1)) (.mul (.num 2 1) (.var 1)))) (.add (.add (.num 1 1) (.mul (.num 3 1) (.var 1))) (.mul (.num 2 1) (.pow (.var 1) 2)))))) (.sqrt (.div (.mul (.var 1) (.add (.neg (.num 1 1)) (.mul (.num 4 1) (.pow (.var 1) 2)))) (.add (.num 1 1) (.var 1))))) (.sqrt (.mul (.mul (.mul (.mul (.var 0) (.add (.num 1 1) (.mul (.num 2 1) (.var 0)))) (.var 1)) (.add (.num 1 1) (.mul (.num 2 1) (.var 1)))) (.add (.add (.num 3 1) (.mul (.num 5 1) (.var 1))) (.mul (.num 2 1) (.pow (.var 1) 2))))),
  .div (.add (.add (.neg (.sqrt (.add (.num 2 1) (.div (.num 1 1) (.var 0))))) (.sqrt (.mul (.var 0) (.add (.num 1 1) (.mul (.num 2 1) (.var 0)))))) (.mul (.num 2 1) (.sqrt (.mul (.pow (.var 0) 3) (.add (.num 1 1) (.mul (.num 2 1) (.var 0))))))) (.mul (.add (.num 1 1) (.mul (.num 2 1) (.var 0))) (.sqrt (.add (.add (.neg (.num 1 1)) (.var 0)) (.mul (.num 2 1) (.pow (.var 0) 2))))),
  .div (.add (.add (.neg (.sqrt (.mul (.add (.num 2 1) (.div (.num 1 1) (.var 0))) (.var 1)))) (.sqrt (.mul (.mul (.var 0) (.add (.num 1 1) (.mul (.num 2 1) (.var 0)))) (.var 1)))) (.mul (.mul (.num 2 1) (.var 0)) (.sqrt (.mul (.mul (.var 0) (.add (.num 1 1) (.mul (.num 2 1) (.var 0)))) (.var 1))))) (.mul (.mul (.add (.num 1 1) (.mul (.num 2 1) (.var 0))) (.sqrt (.add (.add (.neg (.num 1 1)) (.var 0)) (.mul (.num 2 1) (.pow (.var 0) 2))))) (.hpow (.var 1) 1)),
  .div (.mul (.add (.add (.neg (.num 1 1)) (.var 0)) (.mul (.num 2 1) (.pow (.var 0) 2))) (.add (.add (.neg (.sqrt (.div (.mul (.mul (.add (.num 1 1) (.mul (.num 2 1) (.var 0))) (.var 1)) (.add (.num 1 1) (.mul (.num 2 1) (.var 1)))) (.var 0)))) (.sqrt (.mul (.mul (.mul (.var 0) (.add (.num 1 1) (.mul (.num 2 1) (.var 0)))) (.var 1)) (.add (.num 1 1) (.mul (.num 2 1) (.var 1)))))) (.mul (.num 2 1) (.sqrt (.mul (.mul (.mul (.pow (.var 0) 3) (.add (.num 1 1) (.mul (.num 2 1) (.var 0)))) (.var 1)) (.add (.num 1 1) (.mul (.num 2 1) (.var 1)))))))) (.mul (.add (.num 1 1) (.mul (.num 2 1) (.var 0))) (.hpow (.mul (.mul (.add (.add (.neg (.num 1 1)) (.var 0)) (.mul (.num 2 1) (.pow (.var 0) 2))) (.var 1)) (.add (.num 1 1) (.mul (.num 2 1) (.var 1)))) 1)),
  .div (.num 1 1) (.sqrt (.mul (.add (.num 1 1) (.var 0)) (.add (.num 1 1) (.mul (.num 2 1) (.var 0))))),
  .div (.num 1 1) (.mul (.sqrt (.mul (.add (.num 1 1) (.var 0)) (.add (.num 1 1) (.mul (.num 2 1) (.var 0))))) (.var 1)),
  .div (.num 1 1) (.mul (.sqrt (.add (.add (.num 1 1) (.mul (.num 3 1) (.var 0))) (.mul (.num 2 1) (.pow (.var 0) 2)))) (.add (.var 1) (.mul (.num 2 1) (.pow (.var 1) 2)))),
  .add (.add (.add (.div (.add (.neg (.num 1 1)) (.var 1)) (.sqrt (.div (.mul (.mul (.mul (.mul (.var 0) (.add (.num 1 1) (.var 0))) (.add (.num 1 1) (.mul (.num 2 1) (.var 0)))) (.add (.neg (.num 1 1)) (.var 1))) (.add (.num 1 1) (.var 1))) (.add (.neg (.num 1 1)) (.mul (.num 2 1) (.var 0)))))) (.div (.num 1 1) (.sqrt (.div (.mul (.mul (.mul (.mul (.var 0) (.add (.num 1 1) (.var 0))) (.add (.num 1 1) (.mul (.num 2 1) (.var 0)))) (.pow (.var 1) 2)) (.add (.num 1 1) (.var 1))) (.mul (.add (.neg (.num 1 1)) (.mul (.num 2 1) (.var 0))) (.add (.neg (.num 1 1)) (.var 1))))))) (.div (.mul (.var 0) (.add (.neg (.num 1 1)) (.mul (.num 2 1) (.var 0)))) (.sqrt (.div (.mul (.mul (.mul (.mul (.var 0) (.add (.num 1 1) (.var 0))) (.add (.neg (.num 1 1)) (.mul (.num 4 1) (.pow (.var 0) 2)))) (.pow (.var 1) 2)) (.add (.num 1 1) (.var 1))) (.add (.neg (.num 1 1)) (.var 1)))))) (.div (.mul (.mul (.add (.neg (.num 1 1)) (.mul (.num 2 1) (.var 0))) (.add (.neg (.num 1 1)) (.var 1))) (.var 1)) (.sqrt (.div (.mul (.mul (.mul (.mul (.add (.num 1 1) (.var 0)) (.add (.neg (.num 1 1)) (.mul (.num 4 1) (.pow (.var 0) 2)))) (.add (.neg (.num 1 1)) (.var 1))) (.pow (.var 1) 2)) (.add (.num 1 1) (.var 1))) (.var 0)))),
  .div (.mul (.sqrt (.div (.add (.neg (.num 1 1)) (.mul (.num 2 1) (.var 0))) (.add (.num 1 1) (.var 0)))) (.add (.sqrt (.div (.mul (.add (.num 1 1) (.mul (.num 2 1) (.var 0))) (.add (.neg (.num 1 1)) (.mul (.num 4 1) (.pow (.var 1) 2)))) (.var 0))) (.sqrt (.mul (.mul (.var 0) (.add (.num 1 1) (.mul (.num 2 1) (.var 0)))) (.add (.neg (.num 1 1)) (.mul (.num 4 1) (.pow (.var 1) 2))))))) (.mul (.mul (.add (.num 1 1) (.mul (.num 2 1) (.var 0))) (.var 1)) (.add (.num 1 1) (.mul (.num 2 1) (.var 1)))),
  .div (.num 1 1) (.mul (.var 1) (.sqrt (.div (.mul (.add (.num 1 1) (.var 0)) (.add (.num 1 1) (.mul (.num 2 1) (.var 0)))) (.add (.neg (.num 1 1)) (.pow (.var 1) 2))))),
  .div (.num 1 1) (.mul (.var 1) (.sqrt (.div (.mul (.mul (.add (.num 1 1) (.var 0)) (.add (.num 1 1) (.mul (.num 2 1) (.var 0)))) (.add (.num 1 1) (.mul (.num 2 1) (.var 1)))) (.add (.neg (.num 1 1)) (.mul (.num 2 1) (.var 1)))))),
  .div (.add (.sub (.add (.add (.sub (.add (.add (.sub (.mul (.add (.neg (.num 1 1)) (.mul (.num 2 1) (.var 0))) (.sqrt (.div (.mul (.add (.num 1 1) (.mul (.num 2 1) (.var 0))) (.add (.neg (.num 1 1)) (.mul (.num 2 1) (.var 1)))) (.mul (.var 0) (.add (.num 1 1) (.var 1)))))) (.sqrt (.div (.mul (.mul (.var 0) (.add (.num 1 1) (.mul (.num 2 1) (.var 0)))) (.add (.neg (.num 1 1)) (.mul (.num 2 1) (.var 1)))) (.add (.num 1 1) (.var 1))))) (.mul (.num 2 1) (.sqrt (.div (.mul (.mul (.pow (.var 0) 3) (.add (.num 1 1) (.mul (.num 2 1) (.var 0)))) (.add (.neg (.num 1 1)) (.mul (.num 2 1) (.var 1)))) (.add (.num 1 1) (.var 1)))))) (.mul (.mul (.add (.neg (.num 1 1)) (.mul (.num 2 1) (.var 0))) (.sqrt (.div (.mul (.add (.num 1 1) (.mul (.num 2 1) (.var 0))) (.add (.neg (.num 1 1)) (.mul (.num 2 1) (.var 1)))) (.mul (.var 0) (.add (.num 1 1) (.var 1)))))) (.add (.num 1 1) (.mul (.num 2 1) (.var 1))))) (.mul (.sqrt (.div (.mul (.mul (.var 0) (.add (.num 1 1) (.mul (.num 2 1) (.var 0)))) (.add (.neg (.num 1 1)) (.mul (.num 2 1) (.var 1)))) (.add (.num 1 1) (.var 1)))) (.add (.num 1 1) (.mul (.num 2 1) (.var 1))))) (.mul (.mul (.mul (.num 2 1) (.var 0)) (.sqrt (.div (.mul (.mul (.var 0) (.add (.num 1 1) (.mul (.num 2 1) (.var 0)))) (.add (.neg (.num 1 1)) (.mul (.num 2 1) (.var 1)))) (.add (.num 1 1) (.var 1))))) (.add (.num 1 1) (.mul (.num 2 1) (.var 1))))) (.mul (.mul (.mul (.num 2 1) (.hpow (.var 0) 1)) (.add (.num 1 1) (.mul (.num 2 1) (.var 1)))) (.sqrt (.mul (.add (.num 1 1) (.mul (.num 2 1) (.var 0))) (.add (.add (.neg (.num 1 1)) (.var 1)) (.mul (.num 2 1) (.pow (.var 1) 2))))))) (.mul (.mul (.var 0) (.add (.num 1 1) (.mul (.num 2 1) (.var 1)))) (.sqrt (.div (.mul (.add (.num 1 1) (.mul (.num 2 1) (.var 0))) (.add (.add (.neg (.num 1 1)) (.var 1)) (.mul (.num 2 1) (.pow (.var 1) 2)))) (.var 0))))) (.mul (.mul (.add (.neg (.num 1 1)) (.mul (.num 2 1) (.var 0))) (.add (.num 1 1) (.mul (.num 2 1) (.var 1)))) (.sqrt (.div (.mul (.add (.num 1 1) (.mul (.num 2 1) (.var 0))) (.add (.add (.neg (.num 1 1)) (.var 1)) (.mul (.num 2 1) (.pow (.var 1) 2)))) (.var 0))))) (.mul (.mul (.add (.num 1 1) (.mul (.num 2 1) (.var 0))) (.add (.num 1 1) (.mul (.num 2 1) (.var 1)))) (.sqrt (.mul (.add (.add (.neg (.num 1 1)) (.var 0)) (.mul (.num 2 1) (.pow (.var 0) 2))) (.add (.add (.num 3 1) (.mul (.num 5 1) (.var 1))) (.mul (.num 2 1) (.pow (.var 1) 2)))))),
  .div (.num 1 1) (.mul (.add (.num 1 1) (.mul (.num 2 1) (.var 1))) (.sqrt (.div (.mul (.add (.num 1 1) (.var 0)) (.add (.num 1 1) (.mul (.num 2 1) (.var 0)))) (.add (.add (.neg (.num 3 1)) (.mul (.num 4 1) (.var 1))) (.mul (.num 4 1) (.pow (.var 1) 2)))))),
  .div (.add (.add (.sqrt (.div (.var 0) (.add (.num 1 1) (.var 0)))) (.mul (.sqrt (.div (.var 0) (.add (.num 1 1) (.var 0)))) (.add (.num 1 1) (.mul (.num 2 1) (.var 0))))) (.mul (.sqrt (.mul (.var 0) (.add (.num 1 1) (.var 0)))) (.add (.num 1 1) (.mul (.num 2 1) (.var 0))))) (.mul (.add (.num 1 1) (.var 0)) (.sqrt (.add (.add (.num 3 1) (.mul (.num 8 1) (.var 0))) (.mul (.num 4 1) (.pow (.var 0) 2))))),
  .div (.add (.add (.mul (.num 2 1) (.sqrt (.div (.var 0) (.add (.num 1 1) (.var 0))))) (.sqrt (.mul (.var 0) (.add (.num 1 1) (.var 0))))) (.mul (.mul (.num 2 1) (.var 0)) (.add (.sqrt (.div (.var 0) (.add (.num 1 1) (.var 0)))) (.sqrt (.mul (.var 0) (.add (.num 1 1) (.var 0))))))) (.mul (.mul (.add (.num 1 1) (.var 0)) (.sqrt (.add (.add (.num 3 1) (.mul (.num 8 1) (.var 0))) (.mul (.num 4 1) (.pow (.var 0) 2))))) (.var 1)),
  .div (.add (.num 3 1) (.mul (.num 2 1) (.var 0))) (.sqrt (.div (.mul (.mul (.add (.num 1 1) (.mul (.num 2 1) (.var 0))) (.add (.add (.num 3 1) (.mul (.num 5 1) (.var 0))) (.mul (.num 2 1) (.pow (.var 0) 2)))) (.pow (.add (.var 1) (.mul (.num 2 1) (.pow (.var 1) 2))) 2)) (.var 0))),
  .div (.add (.add (.add (.sub (.add (.add (.sqrt (.div (.mul (.var 0) (.add (.neg (.num 1 1)) (.var 1))) (.mul (.add (.num 1 1) (.var 0)) (.var 1)))) (.mul (.add (.num 1 1) (.mul (.num 2 1) (.var 0))) (.sqrt (.div (.mul (.var 0) (.add (.neg (.num 1 1)) (.var 1))) (.mul (.add (.num 1 1) (.var 0)) (.var 1)))))) (.mul (.add (.num 1 1) (.mul (.num 2 1) (.var 0))) (.sqrt (.div (.mul (.mul (.var 0) (.add (.num 1 1) (.var 0))) (.add (.neg (.num 1 1)) (.var 1))) (.var 1))))) (.mul (.mul (.add (.num 1 1) (.mul (.num 2 1) (.var 0))) (.sqrt (.div (.mul (.var 0) (.add (.num 1 1) (.var 0))) (.mul (.add (.neg (.num 1 1)) (.var 1)) (.var 1))))) (.var 1))) (.mul (.mul (.add (.num 1 1) (.mul (.num 2 1) (.var 0))) (.sqrt (.div (.mul (.var 0) (.add (.num 1 1) (.var 0))) (.mul (.add (.neg (.num 1 1)) (.var 1)) (.var 1))))) (.pow (.var 1) 2))) (.sqrt (.div (.mul (.mul (.var 0) (.add (.neg (.num 1 1)) (.var 1))) (.var 1)) (.add (.num 1 1) (.var 0))))) (.mul (.add (.num 1 1) (.mul (.num 2 1) (.var 0))) (.sqrt (.div (.mul (.mul (.var 0) (.add (.neg (.num 1 1)) (.var 1))) (.var 1)) (.add (.num 1 1) (.var 0)))))) (.mul (.add (.num 1 1) (.var 0)) (.sqrt (.mul (.mul (.add (.add (.num 3 1) (.mul (.num 8 1) (.var 0))) (.mul (.num 4 1) (.pow (.var 0) 2))) (.var 1)) (.add (.num 1 1) (.var 1))))),
  .div (.add (.add (.add (.add (.mul (.num 2 1) (.sqrt (.div (.mul (.var 0) (.add (.neg (.num 1 1)) (.mul (.num 2 1) (.var 1)))) (.add (.num 1 1) (.var 0))))) (.mul (.num 2 1) (.sqrt (.div (.mul (.pow (.var 0) 3) (.add (.neg (.num 1 1)) (.mul (.num 2 1) (.var 1)))) (.add (.num 1 1) (.var 0)))))) (.sqrt (.mul (.mul (.var 0) (.add (.num 1 1) (.var 0))) (.add (.neg (.num 1 1)) (.mul (.num 2 1) (.var 1)))))) (.mul (.mul (.num 2 1) (.var 0)) (.sqrt (.mul (.mul (.var 0) (.add (.num 1 1) (.var 0))) (.add (.neg (.num 1 1)) (.mul (.num 2 1) (.var 1))))))) (.mul (.var 1) (.add (.add (.mul (.num 2 1) (.sqrt (.div (.mul (.var 0) (.add (.neg (.num 1 1)) (.mul (.num 2 1) (.var 1)))) (.add (.num 1 1) (.var 0))))) (.sqrt (.mul (.mul (.var 0) (.add (.num 1 1) (.var 0))) (.add (.neg (.num 1 1)) (.mul (.num 2 1) (.var 1)))))) (.mul (.mul (.num 2 1) (.var 0)) (.add (.sqrt (.div (.mul (.var 0) (.add (.neg (.num 1 1)) (.mul (.num 2 1) (.var 1)))) (.add (.num 1 1) (.var 0)))) (.sqrt (.mul (.mul (.var 0) (.add (.num 1 1) (.var 0))) (.add (.neg (.num 1 1)) (.mul (.num 2 1) (.var 1)))))))))) (.mul (.mul (.mul (.add (.num 1 1) (.var 0)) (.var 1)) (.add (.num 1 1) (.var 1))) (.sqrt (.mul (.add (.add (.num 3 1) (.mul (.num 8 1) (.var 0))) (.mul (.num 4 1) (.pow (.var 0) 2))) (.add (.num 1 1) (.mul (.num 2 1) (.var 1)))))),
  .div (.add (.mul (.num 3 1) (.add (.add (.add (.add (.add (.sqrt (.div (.mul (.mul (.var 0) (.var 1)) (.add (.neg (.num 1 1)) (.mul (.num 2 1) (.var 1)))) (.mul (.add (.num 1 1) (.var 0)) (.add (.add (.num 1 1) (.mul (.num 3 1) (.var 1))) (.mul (.num 2 1) (.pow (.var 1) 2)))))) (.sqrt (.div (.mul (.mul (.pow (.var 0) 3) (.var 1)) (.add (.neg (.num 1 1)) (.mul (.num 2 1) (.var 1)))) (.mul (.add (.num 1 1) (.var 0)) (.add (.add (.num 1 1) (.mul (.num 3 1) (.var 1))) (.mul (.num 2 1) (.pow (.var 1) 2))))))) (.sqrt (.div (.mul (.mul (.var 0) (.var 1)) (.add (.neg (.num 1 1)) (.mul (.num 4 1) (.pow (.var 1) 2)))) (.mul (.add (.num 1 1) (.var 0)) (.add (.num 1 1) (.var 1)))))) (.sqrt (.div (.mul (.mul (.pow (.var 0) 3) (.var 1)) (.add (.neg (.num 1 1)) (.mul (.num 4 1) (.pow (.var 1) 2)))) (.mul (.add (.num 1 1) (.var 0)) (.add (.num 1 1) (.var 1)))))) (.sqrt (.div (.mul (.mul (.var 0) (.var 1)) (.add (.add (.sub (.neg (.num 1 1)) (.var 1)) (.mul (.num 4 1) (.pow (.var 1) 2))) (.mul (.num 4 1) (.pow (.var 1) 3)))) (.add (.num 1 1) (.var 0))))) (.sqrt (.div (.mul (.mul (.pow (.var 0) 3) (.var 1)) (.add (.add (.sub (.neg (.num 1 1)) (.var 1)) (.mul (.num 4 1) (.pow (.var 1) 2))) (.mul (.num 4 1) (.pow (.var 1) 3)))) (.add (.num 1 1) (.var 0)))))) (.mul (.mul (.num 2 1) (.var 0)) (.add (.add (.sqrt (.div (.mul (.mul (.mul (.var 0) (.add (.num 1 1) (.var 0))) (.var 1)) (.add (.neg (.num 1 1)) (.mul (.num 2 1) (.var 1)))) (.add (.add (.num 1 1) (.mul (.num 3 1) (.var 1))) (.mul (.num 2 1) (.pow (.var 1) 2))))) (.sqrt (.div (.mul (.mul (.mul (.var 0) (.add (.num 1 1) (.var 0))) (.var 1)) (.add (.neg (.num 1 1)) (.mul (.num 4 1) (.pow (.var 1) 2)))) (.add (.num 1 1) (.var 1))))) (.sqrt (.mul (.mul (.mul (.var 0) (.add (.num 1 1) (.var 0))) (.var 1)) (.add (.add (.sub (.neg (.num 1 1)) (.var 1)) (.mul (.num 4 1) (.pow (.var 1) 2))) (.mul (.num 4 1) (.pow (.var 1) 3)))))))) (.mul (.add (.num 1 1) (.var 0)) (.sqrt (.mul (.mul (.add (.add (.num 3 1) (.mul (.num 8 1) (.var 0))) (.mul (.num 4 1) (.pow (.var 0) 2))) (.var 1)) (.add (.add (.add (.num 3 1) (.mul (.num 11 1) (.var 1))) (.mul (.num 12 1) (.pow (.var 1) 2))) (.mul (.num 4 1) (.pow (.var 1) 3)))))),
  .neg (.div (.sqrt (.num 3 1)) (.sqrt (.add (.neg (.num 1 1)) (.mul (.num 4 1) (.pow (.var 0) 2))))),
  .div (.mul (.neg (.num 2 1)) (.add (.neg (.num 1 1)) (.pow (.var 0) 2))) (.sqrt (.add (.sub (.num 1 1) (.mul (.num 5 1) (.pow (.var 0) 2))) (.mul (.num 4 1) (.pow (.var 0) 4)))),
  .div (.neg (.num 2 1)) (.add (.num 1 1) (.mul (.num 2 1) (.var 0))),
  .neg (.div (.mul (.sqrt (.num 3 1)) (.add (.add (.mul (.num 3 1) (.sqrt (.mul (.var 0) (.add (.num 1 1) (.var 0))))) (.mul (.num 5 1) (.sqrt (.mul (.pow (.var 0) 3) (.add (.num 1 1) (.var 0)))))) (.mul (.num 2 1) (.sqrt (.mul (.pow (.var 0) 5) (.add (.num 1 1) (.var 0))))))) (.sqrt (.mul (.mul (.var 0) (.add (.num 1 1) (.mul (.num 2 1) (.var 0)))) (.pow (.add (.add (.num 3 1) (.mul (.num 5 1) (.var 0))) (.mul (.num 2 1) (.pow (.var 0) 2))) 3)))),
  .neg (.div (.add (.add (.mul (.num 9 1) (.sqrt (.div (.var 0) (.add (.num 3 1) (.mul (.num 2 1) (.var 0)))))) (.sqrt (.mul (.var 0) (.add (.num 3 1) (.mul (.num 2 1) (.var 0)))))) (.mul (.mul (.num 2 1) (.var 0)) (.add (.mul (.num 3 1) (.sqrt (.div (.var 0) (.add (.num 3 1) (.mul (.num 2 1) (.var 0)))))) (.sqrt (.mul (.var 0) (.add (.num 3 1) (.mul (.num 2 1) (.var 0)))))))) (.mul (.add (.num 3 1) (.mul (.num 2 1) (.var 0))) (.sqrt (.add (.add (.num 2 1) (.mul (.num 5 1) (.var 0))) (.mul (.num 2 1) (.pow (.var 0) 2)))))),
  .sqrt (.div (.add (.neg (.num 6 1)) (.mul (.num 4 1) (.var 1))) (.add (.sub (.var 1) (.mul (.num 3 1) (.pow (.var 1) 2))) (.mul (.num 2 1) (.pow (.var 1) 3)))),
  .div (.add (.neg (.num 3 1)) (.pow (.var 1) 2)) (.mul (.var 1) (.sqrt (.add (.neg (.num 1 1)) (.pow (.var 1) 2)))),
  .div (.mul (.sqrt (.num 3 1)) (.add (.add (.neg (.num 3 1)) (.var 1)) (.mul (.num 2 1) (.pow (.var 1) 2)))) (.mul (.var 1) (.sqrt (.mul (.add (.num 1 1) (.var 1)) (.add (.add (.sub (.neg (.num 3 1)) (.mul (.num 5 1) (.var 1))) (.mul (.num 4 1) (.pow (.var 1) 2))) (.mul (.num 4 1) (.pow (.var 1) 3)))))),
  .neg (.div (.mul (.sqrt (.num 3 1)) (.sub (.add (.sub (.add (.sub (.add (.mul (.mul (.mul (.mul (.mul (.neg (.num 2 1)) (.add (.neg (.num 1 1)) (.var 1))) (.hpow (.var 1) 2)) (.hpow (.add (.num 1 1) (.var 1)) 1)) (.sqrt (.add (.neg (.num 1 1)) (.mul (.num 2 1) (.var 1))))) (.add (.num 3 1) (.mul (.num 2 1) (.var 1)))) (.mul (.mul (.mul (.mul (.num 7 1) (.add (.neg (.num 1 1)) (.var 1))) (.hpow (.mul (.var 1) (.add (.num 1 1) (.var 1))) 1)) (.sqrt (.add (.neg (.num 1 1)) (.mul (.num 2 1) (.var 1))))) (.add (.num 3 1) (.mul (.num 2 1) (.var 1))))) (.mul (.mul (.mul (.mul (.num 3 1) (.add (.neg (.num 1 1)) (.var 1))) (.hpow (.add (.num 1 1) (.var 1)) 1)) (.sqrt (.mul (.var 1) (.add (.neg (.num 1 1)) (.mul (.num 2 1) (.var 1)))))) (.add (.num 3 1) (.mul (.num 2 1) (.var 1))))) (.mul (.var 1) (.sqrt (.mul (.mul (.mul (.var 1) (.pow (.add (.num 1 1) (.var 1)) 3)) (.add (.neg (.num 1 1)) (.mul (.num 2 1) (.var 1)))) (.pow (.add (.num 3 1) (.mul (.num 2 1) (.var 1))) 2))))) (.mul (.mul (.num 3 1) (.pow (.var 1) 2)) (.sqrt (.mul (.mul (.mul (.var 1) (.pow (.add (.num 1 1) (.var 1)) 3)) (.add (.neg (.num 1 1)) (.mul (.num 2 1) (.var 1)))) (.pow (.add (.num 3 1) (.mul (.num 2 1) (.var 1))) 2))))) (.mul (.mul (.num 2 1) (.pow (.var 1) 3)) (.sqrt (.mul (.mul (.mul (.var 1) (.pow (.add (.num 1 1) (.var 1)) 3)) (.add (.neg (.num 1 1)) (.mul (.num 2 1) (.var 1)))) (.pow (.add (.num 3 1) (.mul (.num 2 1) (.var 1))) 2))))) (.mul (.mul (.mul (.num 2 1) (.sqrt (.div (.mul (.var 1) (.add (.num 1 1) (.var 1))) (.add (.neg (.num 1 1)) (.mul (.num 2 1) (.var 1)))))) (.add (.sub (.num 3 1) (.mul (.num 5 1) (.var 1))) (.mul (.num 2 1) (.pow (.var 1) 2)))) (.add (.add (.add (.neg (.num 3 1)) (.var 1)) (.mul (.num 8 1) (.pow (.var 1) 2))) (.mul (.num 4 1) (.pow (.var 1) 3)))))) (.mul (.mul (.mul (.sqrt (.add (.neg (.num 1 1)) (.var 1))) (.pow (.add (.num 1 1) (.var 1)) 2)) (.add (.neg (.num 1 1)) (.mul (.num 2 1) (.var 1)))) (.hpow (.mul (.var 1) (.add (.num 3 1) (.mul (.num 2 1) (.var 1)))) 1))),
  .div (.add (.add (.neg (.num 3 1)) (.var 1)) (.pow (.var 1) 2)) (.mul (.var 1) (.add (.num 1 1) (.var 1))),
  .div (.mul (.mul (.sqrt (.num 3 1)) (.sqrt (.add (.num 1 1) (.var 1)))) (.add (.add (.add (.sub (.mul (.mul (.num 6 1) (.sqrt (.mul (.var 1) (.add (.add (.neg (.num 2 1)) (.mul (.num 3 1) (.var 1))) (.mul (.num 2 1) (.pow (.var 1) 2)))))) (.add (.add (.num 3 1) (.mul (.num 5 1) (.var 1))) (.mul (.num 2 1) (.pow (.var 1) 2)))) (.mul (.mul (.mul (.num 19 1) (.var 1)) (.sqrt (.mul (.var 1) (.add (.add (.neg (.num 2 1)) (.mul (.num 3 1) (.var 1))) (.mul (.num 2 1) (.pow (.var 1) 2)))))) (.add (.add (.num 3 1) (.mul (.num 5 1) (.var 1))) (.mul (.num 2 1) (.pow (.var 1) 2))))) (.mul (.mul (.mul (.num 12 1) (.pow (.var 1) 2)) (.sqrt (.mul (.var 1) (.add (.add (.neg (.num 2 1)) (.mul (.num 3 1) (.var 1))) (.mul (.num 2 1) (.pow (.var 1) 2)))))) (.add (.add (.num 3 1) (.mul (.num 5 1) (.var 1))) (.mul (.num 2 1) (.pow (.var 1) 2))))) (.mul (.mul (.mul (.num 4 1) (.pow (.var 1) 3)) (.sqrt (.mul (.var 1) (.add (.add (.neg (.num 2 1)) (.mul (.num 3 1) (.var 1))) (.mul (.num 2 1) (.pow (.var 1) 2)))))) (.add (.add (.num 3 1) (.mul (.num 5 1) (.var 1))) (.mul (.num 2 1) (.pow (.var 1) 2))))) (.mul (.num 12 1) (.sqrt (.mul (.mul (.mul (.var 1) (.add (.num 2 1) (.var 1))) (.pow (.add (.neg (.num 1 1)) (.mul (.num 2 1) (.var 1))) 3)) (.pow (.add (.add (.num 3 1) (.mul (.num 5 1) (.var 1))) (.mul (.num 2 1) (.pow (.var 1) 2))) 2)))))) (.mul (.mul (.var 1) (.add (.add (.neg (.num 2 1)) (.mul (.num 3 1) (.var 1))) (.mul (.num 2 1) (.pow (.var 1) 2)))) (.hpow (.add (.add (.num 3 1) (.mul (.num 5 1) (.var 1))) (.mul (.num 2 1) (.pow (.var 1) 2))) 2)),
  .div (.mul (.sqrt (.add (.num 3 1) (.div (.num 3 1) (.var 1)))) (.sub (.add (.sub (.mul (.neg (.num 6 1)) (.sqrt (.div (.add (.add (.add (.neg (.num 6 1)) (.mul (.num 5 1) (.var 1))) (.mul (.num 12 1) (.pow (.var 1) 2))) (.mul (.num 4 1) (.pow (.var 1) 3))) (.add (.num 1 1) (.mul (.num 2 1) (.var 1)))))) (.mul (.mul (.num 3 1) (.var 1)) (.sqrt (.div (.add (.add (.add (.neg (.num 6 1)) (.mul (.num 5 1) (.var 1))) (.mul (.num 12 1) (.pow (.var 1) 2))) (.mul (.num 4 1) (.pow (.var 1) 3))) (.add (.num 1 1) (.mul (.num 2 1) (.var 1))))))) (.mul (.mul (.num 6 1) (.pow (.var 1) 2)) (.sqrt (.div (.add (.add (.add (.neg (.num 6 1)) (.mul (.num 5 1) (.var 1))) (.mul (.num 12 1) (.pow (.var 1) 2))) (.mul (.num 4 1) (.pow (.var 1) 3))) (.add (.num 1 1) (.mul (.num 2 1) (.var 1))))))) (.mul (.mul (.num 4 1) (.var 1)) (.sqrt (.add (.add (.add (.sub (.neg (.num 6 1)) (.mul (.num 7 1) (.var 1))) (.mul (.num 22 1) (.pow (.var 1) 2))) (.mul (.num 28 1) (.pow (.var 1) 3))) (.mul (.num 8 1) (.pow (.var 1) 4))))))) (.mul (.add (.num 2 1) (.var 1)) (.hpow (.add (.add (.num 3 1) (.mul (.num 5 1) (.var 1))) (.mul (.num 2 1) (.pow (.var 1) 2))) 1)),
  .div (.add (.add (.neg (.num 2 1)) (.mul (.num 2 1) (.var 1))) (.pow (.var 1) 2)) (.mul (.add (.num 1 1) (.var 1)) (.sqrt (.mul (.var 1) (.add (.num 2 1) (.var 1))))),
  .div (.mul (.sqrt (.num 2 1)) (.add (.mul (.mul (.num 45 1) (.var 1)) (.sqrt (.div (.mul (.var 1) (.add (.add (.num 3 1) (.mul (.num 5 1) (.var 1))) (.mul (.num 2 1) (.pow (.var 1) 2)))) (.add (.num 5 1) (.mul (.num 2 1) (.var 1)))))) (.mul (.num 2 1) (.add (.add (.sqrt (.div (.mul (.mul (.mul (.pow (.var 1) 3) (.pow (.add (.num 1 1) (.var 1)) 3)) (.pow (.add (.num 1 1) (.mul (.num 2 1) (.var 1))) 2)) (.add (.num 3 1) (.mul (.num 2 1) (.var 1)))) (.add (.num 5 1) (.mul (.num 2 1) (.var 1))))) (.mul (.num 15 1) (.sqrt (.div (.mul (.var 1) (.add (.add (.num 3 1) (.mul (.num 5 1) (.var 1))) (.mul (.num 2 1) (.pow (.var 1) 2)))) (.add (.num 5 1) (.mul (.num 2 1) (.var 1))))))) (.mul (.num 9 1) (.sqrt (.div (.mul (.pow (.var 1) 5) (.add (.add (.num 3 1) (.mul (.num 5 1) (.var 1))) (.mul (.num 2 1) (.pow (.var 1) 2)))) (.add (.num 5 1) (.mul (.num 2 1) (.var 1)))))))))) (.mul (.mul (.add (.num 1 1) (.var 1)) (.sqrt (.mul (.var 1) (.add (.num 5 1) (.mul (.num 2 1) (.var 1)))))) (.hpow (.add (.add (.num 6 1) (.mul (.num 7 1) (.var 1))) (.mul (.num 2 1) (.pow (.var 1) 2))) 1)),
  .neg (.div (.mul (.sqrt (.num 2 1)) (.add (.mul (.num 5 1) (.sqrt (.mul (.var 1) (.add (.num 1 1) (.var 1))))) (.mul (.num 2 1) (.sqrt (.mul (.pow (.var 1) 3) (.add (.num 1 1) (.var 1))))))) (.mul (.add (.num 1 1) (.var 1)) (.sqrt (.mul (.mul (.var 1) (.add (.num 5 1) (.mul (.num 2 1) (.var 1)))) (.add (.add (.num 6 1) (.mul (.num 7 1) (.var 1))) (.mul (.num 2 1) (.pow (.var 1) 2))))))),
  .div (.add (.num 3 1) (.var 1)) (.sqrt (.add (.add (.add (.num 11 1) (.div (.num 6 1) (.var 1))) (.mul (.num 6 1) (.var 1))) (.pow (.var 1) 2))),
  .div (.mul (.num 2 1) (.sqrt (.mul (.var 0) (.add (.num 1 1) (.var 0))))) (.add (.var 1) (.mul (.mul (.num 2 1) (.var 0)) (.var 1))),
  .div (.mul (.mul (.neg (.num 2 1)) (.sqrt (.mul (.var 0) (.add (.num 1 1) (.var 0))))) (.add (.add (.neg (.num 1 1)) (.var 1)) (.pow (.var 1) 2))) (.mul (.mul (.add (.num 1 1) (.mul (.num 2 1) (.var 0))) (.var 1)) (.add (.num 1 1) (.var 1))),
  .div (.mul (.neg (.num 2 1)) (.sqrt (.mul (.var 0) (.add (.num 1 1) (.var 0))))) (.add (.add (.add (.num 1 1) (.mul (.num 2 1) (.var 0))) (.var 1)) (.mul (.mul (.num 2 1) (.var 0)) (.var 1))),
  .div (.mul (.num 2 1) (.sub (.add (.mul (.num 2 1) (.sqrt (.div (.add (.var 0) (.mul (.mul (.num 2 1) (.var 0)) (.var 1))) (.add (.num 1 1) (.mul (.num 2 1) (.var 0)))))) (.sqrt (.div (.var 0) (.add (.add (.add (.num 1 1) (.mul (.num 2 1) (.var 0))) (.mul (.num 2 1) (.var 1))) (.mul (.mul (.num 4 1) (.var 0)) (.var 1)))))) (.mul (.mul (.num 2 1) (.var 1)) (.sqrt (.div (.var 0) (.add (.add (.add (.num 1 1) (.mul (.num 2 1) (.var 0))) (.mul (.num 2 1) (.var 1))) (.mul (.mul (.num 4 1) (.var 0)) (.var 1)))))))) (.mul (.add (.num 1 1) (.var 1)) (.sqrt (.div (.mul (.add (.num 1 1) (.mul (.num 2 1) (.var 0))) (.add (.num 3 1) (.mul (.num 2 1) (.var 1)))) (.add (.num 1 1) (.var 0))))),
  .div (.mul (.neg (.num 2 1)) (.sqrt (.mul (.mul (.mul (.var 0) (.add (.num 1 1) (.var 0))) (.var 1)) (.add (.num 2 1) (.var 1))))) (.add (.add (.add (.num 1 1) (.mul (.num 2 1) (.var 0))) (.var 1)) (.mul (.mul (.num 2 1) (.var 0)) (.var 1))),
  .neg (.div (.add (.sqrt (.div (.mul (.mul (.add (.num 1 1) (.var 0)) (.var 1)) (.add (.num 1 1) (.var 1))) (.add (.num 1 1) (.mul (.num 2 1) (.var 0))))) (.mul (.mul (.num 2 1) (.var 0)) (.add (.neg (.mul (.var 1) (.sqrt (.div (.mul (.mul (.add (.num 1 1) (.var 0)) (.var 1)) (.add (.num 1 1) (.var 1))) (.add (.num 1 1) (.mul (.num 2 1) (.var 0))))))) (.sqrt (.div (.mul (.mul (.add (.num 1 1) (.var 0)) (.pow (.var 1) 3)) (.add (.num 1 1) (.var 1))) (.add (.num 1 1) (.mul (.num 2 1) (.var 0)))))))) (.mul (.var 1) (.sqrt (.mul (.mul (.mul (.add (.num 1 1) (.var 0)) (.add (.num 1 1) (.mul (.num 2 1) (.var 0)))) (.var 1)) (.add (.num 1 1) (.var 1)))))),
  .div (.add (.add (.neg (.num 1 1)) (.var 1)) (.pow (.var 1) 2)) (.mul (.mul (.add (.num 1 1) (.mul (.num 2 1) (.var 0))) (.var 1)) (.add (.num 1 1) (.var 1))),
  .div (.num 1 1) (.add (.add (.add (.num 1 1) (.mul (.num 2 1) (.var 0))) (.var 1)) (.mul (.mul (.num 2 1) (.var 0)) (.var 1))),
  .neg (.div (.add (.add (.sub (.sub (.add (.div (.mul (.mul (.hpow (.add (.num 1 1) (.var 0)) 1) (.hpow (.var 1) 2)) (.add (.num 1 1) (.var 1))) (.sqrt (.add (.num 3 1) (.mul (.num 2 1) (.var 0))))) (.div (.mul (.mul (.mul (.num 2 1) (.hpow (.add (.num 1 1) (.var 0)) 1)) (.hpow (.var 1) 2)) (.add (.num 1 1) (.var 1))) (.mul (.add (.num 1 1) (.mul (.num 2 1) (.var 0))) (.sqrt (.add (.num 3 1) (.mul (.num 2 1) (.var 0))))))) (.mul (.var 1) (.sqrt (.div (.mul (.mul (.pow (.add (.num 1 1) (.var 0)) 3) (.var 1)) (.pow (.add (.num 1 1) (.var 1)) 2)) (.add (.num 3 1) (.mul (.num 2 1) (.var 0))))))) (.mul (.mul (.num 2 1) (.var 1)) (.sqrt (.div (.mul (.mul (.pow (.add (.num 1 1) (.var 0)) 3) (.var 1)) (.pow (.add (.num 1 1) (.var 1)) 2)) (.mul (.pow (.add (.num 1 1) (.mul (.num 2 1) (.var 0))) 2) (.add (.num 3 1) (.mul (.num 2 1) (.var 0)))))))) (.sqrt (.div (.mul (.mul (.pow (.add (.num 1 1) (.var 0)) 3) (.var 1)) (.pow (.add (.add (.neg (.num 1 1)) (.var 1)) (.mul (.num 2 1) (.pow (.var 1) 2))) 2)) (.add (.num 3 1) (.mul (.num 2 1) (.var 0)))))) (.mul (.num 2 1) (.sqrt (.div (.mul (.mul (.pow (.add (.num 1 1) (.var 0)) 3) (.var 1)) (.pow (.add (.add (.neg (.num 1 1)) (.var 1)) (.mul (.num 2 1) (.pow (.var 1) 2))) 2)) (.mul (.pow (.add (.num 1 1) (.mul (.num 2 1) (.var 0))) 2) (.add (.num 3 1) (.mul (.num 2 1) (.var 0)))))))) (.sqrt (.div (.mul (.mul (.mul (.pow (.add (.num 1 1) (.var 0)) 3) (.add (.num 3 1) (.mul (.num 2 1) (.var 0)))) (.pow (.var 1) 3)) (.pow (.add (.num 1 1) (.var 1)) 4)) (.pow (.add (.num 1 1) (.mul (.num 2 1) (.var 0))) 2)))),
  .neg (.div (.num 1 1) (.add (.num 1 1) (.var 1))),
  .neg (.div (.sqrt (.div (.add (.num 3 1) (.mul (.num 2 1) (.var 1))) (.add (.num 1 1) (.mul (.num 2 1) (.var 1))))) (.add (.add (.add (.num 1 1) (.mul (.num 2 1) (.var 0))) (.var 1)) (.mul (.mul (.num 2 1) (.var 0)) (.var 1)))),
  .div (.mul (.add (.num 1 1) (.var 0)) (.add (.add (.add (.mul (.mul (.num 2 1) (.pow (.var 1) 2)) (.sqrt (.div (.mul (.mul (.add (.num 1 1) (.var 0)) (.var 1)) (.add (.add (.num 3 1) (.mul (.num 5 1) (.var 1))) (.mul (.num 2 1) (.pow (.var 1) 2)))) (.add (.num 2 1) (.var 1))))) (.mul (.mul (.num 6 1) (.var 0)) (.sub (.add (.sqrt (.div (.mul (.mul (.add (.num 1 1) (.var 0)) (.var 1)) (.add (.num 3 1) (.mul (.num 2 1) (.var 1)))) (.add (.add (.num 2 1) (.mul (.num 3 1) (.var 1))) (.pow (.var 1) 2)))) (.mul (.var 1) (.sqrt (.div (.mul (.mul (.add (.num 1 1) (.var 0)) (.var 1)) (.add (.num 3 1) (.mul (.num 2 1) (.var 1)))) (.add (.add (.num 2 1) (.mul (.num 3 1) (.var 1))) (.pow (.var 1) 2)))))) (.sqrt (.div (.mul (.mul (.add (.num 1 1) (.var 0)) (.var 1)) (.add (.add (.num 3 1) (.mul (.num 5 1) (.var 1))) (.mul (.num 2 1) (.pow (.var 1) 2)))) (.add (.num 2 1) (.var 1))))))) (.mul (.num 3 1) (.add (.sqrt (.div (.mul (.mul (.add (.num 1 1) (.var 0)) (.var 1)) (.add (.num 3 1) (.mul (.num 2 1) (.var 1)))) (.add (.add (.num 2 1) (.mul (.num 3 1) (.var 1))) (.pow (.var 1) 2)))) (.sqrt (.div (.mul (.mul (.add (.num 1 1) (.var 0)) (.var 1)) (.add (.add (.num 3 1) (.mul (.num 5 1) (.var 1))) (.mul (.num 2 1) (.pow (.var 1) 2)))) (.add (.num 2 1) (.var 1))))))) (.mul (.var 1) (.add (.mul (.num 3 1) (.sqrt (.div (.mul (.mul (.add (.num 1 1) (.var 0)) (.var 1)) (.add (.num 3 1) (.mul (.num 2 1) (.var 1)))) (.add (.add (.num 2 1) (.mul (.num 3 1) (.var 1))) (.pow (.var 1) 2))))) (.mul (.num 7 1) (.sqrt (.div (.mul (.mul (.add (.num 1 1) (.var 0)) (.var 1)) (.add (.add (.num 3 1) (.mul (.num 5 1) (.var 1))) (.mul (.num 2 1) (.pow (.var 1) 2)))) (.add (.num 2 1) (.var 1))))))))) (.mul (.add (.num 1 1) (.mul (.num 2 1) (.var 0))) (.hpow (.mul (.mul (.add (.num 1 1) (.var 0)) (.add (.num 1 1) (.var 1))) (.add (.num 3 1) (.mul (.num 2 1) (.var 1)))) 1)),
  .div (.sub (.sub (.sub (.add (.add (.add (.mul (.num 2 1) (.sqrt (.div (.mul (.mul (.mul (.pow (.add (.num 1 1) (.var 0)) 3) (.var 1)) (.pow (.add (.num 1 1) (.var 1)) 2)) (.pow (.add (.num 3 1) (.mul (.num 2 1) (.var 1))) 3)) (.mul (.add (.num 1 1) (.mul (.num 2 1) (.var 0))) (.add (.num 1 1) (.mul (.num 2 1) (.var 1))))))) (.sqrt (.div (.mul (.mul (.mul (.mul (.pow (.add (.num 1 1) (.var 0)) 3) (.add (.num 1 1) (.mul (.num 2 1) (.var 0)))) (.var 1)) (.pow (.add (.num 1 1) (.var 1)) 2)) (.pow (.add (.num 3 1) (.mul (.num 2 1) (.var 1))) 3)) (.add (.num 1 1) (.mul (.num 2 1) (.var 1)))))) (.mul (.num 2 1) (.sqrt (.div (.mul (.mul (.mul (.pow (.add (.num 1 1) (.var 0)) 3) (.var 1)) (.pow (.add (.num 1 1) (.var 1)) 4)) (.pow (.add (.num 3 1) (.mul (.num 2 1) (.var 1))) 3)) (.mul (.add (.num 1 1) (.mul (.num 2 1) (.var 0))) (.add (.num 1 1) (.mul (.num 2 1) (.var 1)))))))) (.sqrt (.div (.mul (.mul (.mul (.mul (.pow (.add (.num 1 1) (.var 0)) 3) (.add (.num 1 1) (.mul (.num 2 1) (.var 0)))) (.var 1)) (.pow (.add (.num 1 1) (.var 1)) 4)) (.pow (.add (.num 3 1) (.mul (.num 2 1) (.var 1))) 3)) (.add (.num 1 1) (.mul (.num 2 1) (.var 1)))))) (.mul (.num 2 1) (.sqrt (.div (.mul (.mul (.mul (.pow (.add (.num 1 1) (.var 0)) 3) (.var 1)) (.pow (.add (.num 3 1) (.mul (.num 2 1) (.var 1))) 3)) (.pow (.add (.add (.neg (.num 1 1)) (.var 1)) (.mul (.num 2 1) (.pow (.var 1) 2))) 2)) (.mul (.add (.num 1 1) (.mul (.num 2 1) (.var 0))) (.pow (.add (.num 1 1) (.mul (.num 2 1) (.var 1))) 3)))))) (.sqrt (.div (.mul (.mul (.mul (.mul (.pow (.add (.num 1 1) (.var 0)) 3) (.add (.num 1 1) (.mul (.num 2 1) (.var 0)))) (.var 1)) (.pow (.add (.num 3 1) (.mul (.num 2 1) (.var 1))) 3)) (.pow (.add (.add (.neg (.num 1 1)) (.var 1)) (.mul (.num 2 1) (.pow (.var 1) 2))) 2)) (.pow (.add (.num 1 1) (.mul (.num 2 1) (.var 1))) 3)))) (.mul (.var 1) (.add (.mul (.num 2 1) (.sqrt (.div (.mul (.mul (.mul (.pow (.add (.num 1 1) (.var 0)) 3) (.var 1)) (.pow (.add (.num 1 1) (.var 1)) 2)) (.pow (.add (.num 3 1) (.mul (.num 2 1) (.var 1))) 3)) (.mul (.add (.num 1 1) (.mul (.num 2 1) (.var 0))) (.add (.num 1 1) (.mul (.num 2 1) (.var 1))))))) (.sqrt (.div (.mul (.mul (.mul (.mul (.pow (.add (.num 1 1) (.var 0)) 3) (.add (.num 1 1) (.mul (.num 2 1) (.var 0)))) (.var 1)) (.pow (.add (.num 1 1) (.var 1)) 2)) (.pow (.add (.num 3 1) (.mul (.num 2 1) (.var 1))) 3)) (.add (.num 1 1) (.mul (.num 2 1) (.var 1)))))))) (.sqrt (.div (.mul (.mul (.mul (.pow (.add (.num 1 1) (.var 0)) 3) (.pow (.add (.num 3 1) (.mul (.num 2 1) (.var 0))) 2)) (.var 1)) (.pow (.add (.add (.num 3 1) (.mul (.num 5 1) (.var 1))) (.mul (.num 2 1) (.pow (.var 1) 2))) 4)) (.mul (.add (.num 1 1) (.mul (.num 2 1) (.var 0))) (.pow (.add (.num 1 1) (.mul (.num 2 1) (.var 1))) 2)))),
  .neg (.div (.add (.add (.add (.add (.add (.mul (.num 2 1) (.sqrt (.div (.mul (.mul (.mul (.mul (.pow (.add (.num 1 1) (.var 0)) 3) (.add (.num 1 1) (.mul (.num 2 1) (.var 0)))) (.var 1)) (.add (.num 1 1) (.var 1))) (.pow (.add (.num 3 1) (.mul (.num 2 1) (.var 1))) 3)) (.mul (.add (.num 3 1) (.mul (.num 2 1) (.var 0))) (.add (.num 2 1) (.var 1)))))) (.mul (.num 4 1) (.sqrt (.div (.mul (.mul (.mul (.pow (.add (.num 1 1) (.var 0)) 3) (.var 1)) (.add (.num 1 1) (.var 1))) (.pow (.add (.num 3 1) (.mul (.num 2 1) (.var 1))) 3)) (.mul (.add (.add (.num 3 1) (.mul (.num 8 1) (.var 0))) (.mul (.num 4 1) (.pow (.var 0) 2))) (.add (.num 2 1) (.var 1))))))) (.mul (.num 3 1) (.sqrt (.div (.mul (.mul (.mul (.mul (.pow (.add (.num 1 1) (.var 0)) 3) (.add (.num 1 1) (.mul (.num 2 1) (.var 0)))) (.var 1)) (.add (.num 1 1) (.var 1))) (.pow (.add (.num 3 1) (.mul (.num 2 1) (.var 1))) 3)) (.mul (.mul (.add (.num 3 1) (.mul (.num 2 1) (.var 0))) (.add (.num 2 1) (.var 1))) (.pow (.add (.num 1 1) (.mul (.num 2 1) (.var 1))) 2)))))) (.div (.mul (.mul (.mul (.mul (.num 6 1) (.add (.num 1 1) (.var 0))) (.add (.num 1 1) (.var 1))) (.add (.num 3 1) (.mul (.num 2 1) (.var 1)))) (.sqrt (.div (.mul (.mul (.add (.num 1 1) (.var 0)) (.var 1)) (.add (.num 3 1) (.mul (.num 2 1) (.var 1)))) (.mul (.add (.add (.num 3 1) (.mul (.num 8 1) (.var 0))) (.mul (.num 4 1) (.pow (.var 0) 2))) (.add (.add (.num 2 1) (.mul (.num 3 1) (.var 1))) (.pow (.var 1) 2)))))) (.add (.num 1 1) (.mul (.num 2 1) (.var 1))))) (.sqrt (.div (.mul (.mul (.mul (.pow (.add (.num 1 1) (.var 0)) 3) (.add (.num 1 1) (.mul (.num 2 1) (.var 0)))) (.var 1)) (.pow (.add (.add (.num 3 1) (.mul (.num 5 1) (.var 1))) (.mul (.num 2 1) (.pow (.var 1) 2))) 3)) (.mul (.add (.num 3 1) (.mul (.num 2 1) (.var 0))) (.add (.num 2 1) (.var 1)))))) (.mul (.num 2 1) (.sqrt (.div (.mul (.mul (.pow (.add (.num 1 1) (.var 0)) 3) (.var 1)) (.pow (.add (.add (.num 3 1) (.mul (.num 5 1) (.var 1))) (.mul (.num 2 1) (.pow (.var 1) 2))) 3)) (.mul (.add (.add (.num 3 1) (.mul (.num 8 1) (.var 0))) (.mul (.num 4 1) (.pow (.var 0) 2))) (.add (.num 2 1) (.var 1))))))) (.sqrt (.div (.mul (.mul (.mul (.pow (.add (.num 1 1) (.var 0)) 3) (.add (.num 3 1) (.mul (.num 2 1) (.var 0)))) (.pow (.add (.num 1 1) (.var 1)) 3)) (.pow (.add (.num 3 1) (.mul (.num 2 1) (.var 1))) 5)) (.mul (.add (.num 1 1) (.mul (.num 2 1) (.var 0))) (.pow (.add (.num 1 1) (.mul (.num 2 1) (.var 1))) 2))))),
  .div (.mul (.num 2 1) (.add (.mul (.num 3 1) (.sqrt (.div (.var 0) (.add (.add (.add (.num 1 1) (.mul (.num 2 1) (.var 0))) (.mul (.num 2 1) (.var 1))) (.mul (.mul (.num 4 1) (.var 0)) (.var 1)))))) (.mul (.var 1) (.add (.sqrt (.div (.add (.var 0) (.mul (.mul (.num 2 1) (.var 0)) (.var 1))) (.add (.num 1 1) (.mul (.num 2 1) (.var 0))))) (.mul (.num 4 1) (.sqrt (.div (.var 0) (.add (.add (.add (.num 1 1) (.mul (.num 2 1) (.var 0))) (.mul (.num 2 1) (.var 1))) (.mul (.mul (.num 4 1) (.var 0)) (.var 1)))))))))) (.mul (.pow (.add (.num 1 1) (.var 1)) 2) (.sqrt (.div (.mul (.add (.num 1 1) (.mul (.num 2 1) (.var 0))) (.add (.num 3 1) (.mul (.num 2 1) (.var 1)))) (.add (.num 1 1) (.var 0))))),
  .neg (.div (.add (.add (.neg (.num 1 1)) (.var 1)) (.pow (.var 1) 2)) (.mul (.var 1) (.add (.num 1 1) (.var 1)))),
  .div (.sqrt (.div (.add (.num 3 1) (.mul (.num 2 1) (.var 1))) (.add (.num 1 1) (.mul (.num 2 1) (.var 1))))) (.add (.num 1 1) (.var 1)),
  .neg (.mul (.sqrt (.div (.mul (.add (.num 1 1) (.mul (.num 2 1) (.var 0))) (.pow (.add (.num 1 1) (.mul (.num 2 1) (.var 1))) 2)) (.mul (.mul (.mul (.pow (.add (.num 1 1) (.var 0)) 3) (.add (.num 3 1) (.mul (.num 2 1) (.var 0)))) (.pow (.add (.num 1 1) (.var 1)) 3)) (.pow (.add (.num 3 1) (.mul (.num 2 1) (.var 1))) 5)))) (.add (.add (.add (.add (.add (.mul (.num 2 1) (.sqrt (.div (.mul (.mul (.mul (.mul (.pow (.add (.num 1 1) (.var 0)) 3) (.add (.num 1 1) (.mul (.num 2 1) (.var 0)))) (.var 1)) (.add (.num 1 1) (.var 1))) (.pow (.add (.num 3 1) (.mul (.num 2 1) (.var 1))) 3)) (.mul (.add (.num 3 1) (.mul (.num 2 1) (.var 0))) (.add (.num 2 1) (.var 1)))))) (.mul (.num 3 1) (.sqrt (.div (.mul (.mul (.mul (.mul (.pow (.add (.num 1 1) (.var 0)) 3) (.add (.num 1 1) (.mul (.num 2 1) (.var 0)))) (.var 1)) (.add (.num 1 1) (.var 1))) (.pow (.add (.num 3 1) (.mul (.num 2 1) (.var 1))) 3)) (.mul (.mul (.add (.num 3 1) (.mul (.num 2 1) (.var 0))) (.add (.num 2 1) (.var 1))) (.pow (.add (.num 1 1) (.mul (.num 2 1) (.var 1))) 2)))))) (.div (.num 4 1) (.sqrt (.div (.mul (.add (.add (.num 3 1) (.mul (.num 8 1) (.var 0))) (.mul (.num 4 1) (.pow (.var 0) 2))) (.add (.num 2 1) (.var 1))) (.mul (.mul (.pow (.add (.num 1 1) (.var 0)) 3) (.pow (.add (.num 3 1) (.mul (.num 2 1) (.var 1))) 3)) (.add (.var 1) (.pow (.var 1) 2))))))) (.div (.mul (.mul (.mul (.mul (.num 6 1) (.add (.num 1 1) (.var 0))) (.add (.num 1 1) (.var 1))) (.add (.num 3 1) (.mul (.num 2 1) (.var 1)))) (.sqrt (.div (.mul (.mul (.add (.num 1 1) (.var 0)) (.var 1)) (.add (.num 3 1) (.mul (.num 2 1) (.var 1)))) (.mul (.add (.add (.num 3 1) (.mul (.num 8 1) (.var 0))) (.mul (.num 4 1) (.pow (.var 0) 2))) (.add (.add (.num 2 1) (.mul (.num 3 1) (.var 1))) (.pow (.var 1) 2)))))) (.add (.num 1 1) (.mul (.num 2 1) (.var 1))))) (.div (.num 2 1) (.sqrt (.div (.mul (.add (.add (.num 3 1) (.mul (.num 8 1) (.var 0))) (.mul (.num 4 1) (.pow (.var 0) 2))) (.add (.num 2 1) (.var 1))) (.mul (.mul (.pow (.add (.num 1 1) (.var 0)) 3) (.var 1)) (.pow (.add (.add (.num 3 1) (.mul (.num 5 1) (.var 1))) (.mul (.num 2 1) (.pow (.var 1) 2))) 3)))))) (.div (.num 1 1) (.sqrt (.div (.mul (.add (.num 3 1) (.mul (.num 2 1) (.var 0))) (.add (.num 2 1) (.var 1))) (.mul (.mul (.pow (.add (.num 1 1) (.var 0)) 3) (.add (.var 1) (.mul (.mul (.num 2 1) (.var 0)) (.var 1)))) (.pow (.add (.add (.num 3 1) (.mul (.num 5 1) (.var 1))) (.mul (.num 2 1) (.pow (.var 1) 2))) 3))))))),
  .div (.mul (.neg (.num 2 1)) (.sqrt (.div (.mul (.mul (.mul (.var 0) (.add (.num 1 1) (.var 0))) (.add (.neg (.num 2 1)) (.var 1))) (.add (.num 1 1) (.var 1))) (.mul (.add (.neg (.num 1 1)) (.var 1)) (.var 1))))) (.add (.num 1 1) (.mul (.num 2 1) (.var 0))),
  .mul (.mul (.neg (.num 2 1)) (.sqrt (.num 2 1))) (.sqrt (.div (.mul (.add (.var 0) (.pow (.var 0) 2)) (.add (.neg (.num 3 1)) (.mul (.num 2 1) (.var 1)))) (.mul (.pow (.add (.num 1 1) (.mul (.num 2 1) (.var 0))) 2) (.add (.sub (.var 1) (.mul (.num 3 1) (.pow (.var 1) 2))) (.mul (.num 2 1) (.pow (.var 1) 3)))))),
  .div (.mul (.mul (.neg (.num 2 1)) (.sqrt (.num 2 1))) (.add (.add (.neg (.sqrt (.div (.mul (.mul (.var 0) (.var 1)) (.add (.num 1 1) (.var 1))) (.add (.num 1 1) (.mul (.num 2 1) (.var 0)))))) (.sqrt (.div (.mul (.var 0) (.add (.num 1 1) (.var 1))) (.add (.var 1) (.mul (.mul (.num 2 1) (.var 0)) (.var 1)))))) (.sqrt (.div (.mul (.mul (.var 0) (.pow (.add (.neg (.num 2 1)) (.var 1)) 2)) (.add (.num 1 1) (.var 1))) (.add (.var 1) (.mul (.mul (.num 2 1) (.var 0)) (.var 1))))))) (.sqrt (.div (.mul (.add (.num 1 1) (.mul (.num 2 1) (.var 0))) (.add (.neg (.num 1 1)) (.pow (.var 1) 2))) (.add (.num 1 1) (.var 0)))),
  .div (.mul (.mul (.neg (.num 2 1)) (.add (.neg (.num 3 1)) (.pow (.var 1) 2))) (.sqrt (.div (.mul (.var 0) (.add (.num 1 1) (.var 0))) (.add (.neg (.num 1 1)) (.pow (.var 1) 2))))) (.add (.var 1) (.mul (.mul (.num 2 1) (.var 0)) (.var 1))),
  .div (.mul (.mul (.mul (.neg (.num 2 1)) (.sqrt (.num 3 1))) (.add (.add (.neg (.num 3 1)) (.var 1)) (.mul (.num 2 1) (.pow (.var 1) 2)))) (.sqrt (.div (.mul (.var 0) (.add (.num 1 1) (.var 0))) (.mul (.mul (.pow (.add (.num 1 1) (.mul (.num 2 1) (.var 0))) 2) (.add (.neg (.num 1 1)) (.pow (.var 1) 2))) (.add (.add (.num 3 1) (.mul (.num 8 1) (.var 1))) (.mul (.num 4 1) (.pow (.var 1) 2))))))) (.var 1),
  .div (.mul (.mul (.mul (.num 2 1) (.sqrt (.num 3 1))) (.sqrt (.div (.mul (.add (.num 1 1) (.var 0)) (.add (.num 1 1) (.var 1))) (.add (.var 1) (.mul (.mul (.num 2 1) (.var 0)) (.var 1)))))) (.add (.sub (.add (.add (.sub (.mul (.mul (.num 3 1) (.var 1)) (.sqrt (.div (.mul (.var 0) (.add (.add (.neg (.num 1 1)) (.var 1)) (.mul (.num 2 1) (.pow (.var 1) 2)))) (.mul (.mul (.add (.num 1 1) (.mul (.num 2 1) (.var 0))) (.add (.neg (.num 1 1)) (.var 1))) (.var 1))))) (.mul (.mul (.num 7 1) (.pow (.var 1) 2)) (.sqrt (.div (.mul (.var 0) (.add (.add (.neg (.num 1 1)) (.var 1)) (.mul (.num 2 1) (.pow (.var 1) 2)))) (.mul (.mul (.add (.num 1 1) (.mul (.num 2 1) (.var 0))) (.add (.neg (.num 1 1)) (.var 1))) (.var 1)))))) (.mul (.mul (.num 4 1) (.pow (.var 1) 4)) (.sqrt (.div (.mul (.var 0) (.add (.add (.neg (.num 1 1)) (.var 1)) (.mul (.num 2 1) (.pow (.var 1) 2)))) (.mul (.mul (.add (.num 1 1) (.mul (.num 2 1) (.var 0))) (.add (.neg (.num 1 1)) (.var 1))) (.var 1)))))) (.mul (.num 15 1) (.sqrt (.div (.mul (.mul (.var 0) (.var 1)) (.add (.sub (.sub (.num 1 1) (.mul (.num 2 1) (.var 1))) (.pow (.var 1) 2)) (.mul (.num 2 1) (.pow (.var 1) 3)))) (.add (.num 1 1) (.mul (.num 2 1) (.var 0))))))) (.mul (.num 4 1) (.sqrt (.div (.mul (.mul (.var 0) (.pow (.var 1) 5)) (.add (.sub (.sub (.num 1 1) (.mul (.num 2 1) (.var 1))) (.pow (.var 1) 2)) (.mul (.num 2 1) (.pow (.var 1) 3)))) (.add (.num 1 1) (.mul (.num 2 1) (.var 0))))))) (.mul (.num 9 1) (.sqrt (.div (.mul (.var 0) (.add (.sub (.sub (.num 1 1) (.mul (.num 2 1) (.var 1))) (.pow (.var 1) 2)) (.mul (.num 2 1) (.pow (.var 1) 3)))) (.add (.var 1) (.mul (.mul (.num 2 1) (.var 0)) (.var 1)))))))) (.mul (.add (.neg (.num 1 1)) (.mul (.num 2 1) (.var 1))) (.hpow (.add (.add (.num 3 1) (.mul (.num 5 1) (.var 1))) (.mul (.num 2 1) (.pow (.var 1) 2))) 1)),
  .div (.mul (.num 2 1) (.sub (.sub (.sub (.add (.mul (.num 15 1) (.sqrt (.div (.mul (.mul (.var 0) (.var 1)) (.add (.num 3 1) (.mul (.num 2 1) (.var 1)))) (.add (.num 1 1) (.mul (.num 2 1) (.var 0)))))) (.mul (.num 11 1) (.sqrt (.div (.mul (.mul (.var 0) (.pow (.var 1) 3)) (.add (.num 3 1) (.mul (.num 2 1) (.var 1)))) (.add (.num 1 1) (.mul (.num 2 1) (.var 0))))))) (.mul (.num 8 1) (.sqrt (.div (.mul (.mul (.var 0) (.pow (.var 1) 5)) (.add (.num 3 1) (.mul (.num 2 1) (.var 1)))) (.add (.num 1 1) (.mul (.num 2 1) (.var 0))))))) (.mul (.num 4 1) (.sqrt (.div (.mul (.mul (.var 0) (.pow (.var 1) 7)) (.add (.num 3 1) (.mul (.num 2 1) (.var 1)))) (.add (.num 1 1) (.mul (.num 2 1) (.var 0))))))) (.mul (.num 9 1) (.sqrt (.div (.mul (.var 0) (.add (.num 3 1) (.mul (.num 2 1) (.var 1)))) (.add (.var 1) (.mul (.mul (.num 2 1) (.var 0)) (.var 1)))))))) (.mul (.mul (.add (.neg (.num 1 1)) (.mul (.num 2 1) (.var 1))) (.sqrt (.div (.add (.var 1) (.mul (.mul (.num 2 1) (.var 0)) (.var 1))) (.add (.add (.add (.num 1 1) (.var 0)) (.var 1)) (.mul (.var 0) (.var 1)))))) (.hpow (.add (.add (.num 3 1) (.mul (.num 5 1) (.var 1))) (.mul (.num 2 1) (.pow (.var 1) 2))) 1)),
  .div (.mul (.mul (.neg (.num 2 1)) (.sqrt (.num 3 1))) (.sqrt (.div (.mul (.mul (.mul (.var 0) (.add (.num 1 1) (.var 0))) (.var 1)) (.add (.add (.neg (.num 2 1)) (.mul (.num 3 1) (.var 1))) (.mul (.num 2 1) (.pow (.var 1) 2)))) (.mul (.pow (.add (.num 1 1) (.var 1)) 2) (.add (.num 3 1) (.mul (.num 2 1) (.var 1))))))) (.add (.var 1) (.mul (.mul (.num 2 1) (.var 0)) (.var 1))),
  .div (.mul (.mul (.mul (.neg (.num 2 1)) (.sqrt (.num 3 1))) (.sqrt (.div (.mul (.add (.num 1 1) (.var 0)) (.add (.num 1 1) (.var 1))) (.add (.var 1) (.mul (.mul (.num 2 1) (.var 0)) (.var 1)))))) (.add (.add (.add (.mul (.neg (.num 6 1)) (.sqrt (.div (.mul (.var 0) (.add (.add (.neg (.num 2 1)) (.mul (.num 3 1) (.var 1))) (.mul (.num 2 1) (.pow (.var 1) 2)))) (.mul (.add (.num 1 1) (.mul (.num 2 1) (.var 0))) (.add (.add (.num 1 1) (.mul (.num 3 1) (.var 1))) (.mul (.num 2 1) (.pow (.var 1) 2))))))) (.mul (.mul (.num 2 1) (.pow (.var 1) 3)) (.sqrt (.div (.mul (.var 0) (.add (.add (.num 2 1) (.mul (.num 5 1) (.var 1))) (.mul (.num 2 1) (.pow (.var 1) 2)))) (.mul (.add (.num 1 1) (.mul (.num 2 1) (.var 0))) (.add (.add (.neg (.num 1 1)) (.var 1)) (.mul (.num 2 1) (.pow (.var 1) 2)))))))) (.mul (.pow (.var 1) 2) (.sub (.sub (.mul (.num 6 1) (.sqrt (.div (.mul (.var 0) (.add (.add (.neg (.num 2 1)) (.mul (.num 3 1) (.var 1))) (.mul (.num 2 1) (.pow (.var 1) 2)))) (.mul (.add (.num 1 1) (.mul (.num 2 1) (.var 0))) (.add (.add (.num 1 1) (.mul (.num 3 1) (.var 1))) (.mul (.num 2 1) (.pow (.var 1) 2))))))) (.mul (.num 7 1) (.sqrt (.div (.mul (.var 0) (.add (.add (.num 2 1) (.mul (.num 5 1) (.var 1))) (.mul (.num 2 1) (.pow (.var 1) 2)))) (.mul (.add (.num 1 1) (.mul (.num 2 1) (.var 0))) (.add (.add (.neg (.num 1 1)) (.var 1)) (.mul (.num 2 1) (.pow (.var 1) 2)))))))) (.mul (.num 2 1) (.sqrt (.div (.mul (.var 0) (.add (.add (.add (.num 2 1) (.mul (.num 7 1) (.var 1))) (.mul (.num 7 1) (.pow (.var 1) 2))) (.mul (.num 2 1) (.pow (.var 1) 3)))) (.mul (.add (.num 1 1) (.mul (.num 2 1) (.var 0))) (.add (.neg (.num 1 1)) (.mul (.num 2 1) (.var 1)))))))))) (.mul (.var 1) (.add (.add (.mul (.neg (.num 3 1)) (.sqrt (.div (.mul (.var 0) (.add (.add (.neg (.num 2 1)) (.mul (.num 3 1) (.var 1))) (.mul (.num 2 1) (.pow (.var 1) 2)))) (.mul (.add (.num 1 1) (.mul (.num 2 1) (.var 0))) (.add (.add (.num 1 1) (.mul (.num 3 1) (.var 1))) (.mul (.num 2 1) (.pow (.var 1) 2))))))) (.mul (.num 3 1) (.sqrt (.div (.mul (.var 0) (.add (.add (.num 2 1) (.mul (.num 5 1) (.var 1))) (.mul (.num 2 1) (.pow (.var 1) 2)))) (.mul (.add (.num 1 1) (.mul (.num 2 1) (.var 0))) (.add (.add (.neg (.num 1 1)) (.var 1)) (.mul (.num 2 1) (.pow (.var 1) 2)))))))) (.sqrt (.div (.mul (.var 0) (.add (.add (.add (.num 2 1) (.mul (.num 7 1) (.var 1))) (.mul (.num 7 1) (.pow (.var 1) 2))) (.mul (.num 2 1) (.pow (.var 1) 3)))) (.mul (.add (.num 1 1) (.mul (.num 2 1) (.var 0))) (.add (.neg (.num 1 1)) (.mul (.num 2 1) (.var 1)))))))))) (.add (.add (.add (.num 6 1) (.mul (.num 13 1) (.var 1))) (.mul (.num 9 1) (.pow (.var 1) 2))) (.mul (.num 2 1) (.pow (.var 1) 3))),
  .div (.mul (.mul (.num 2 1) (.sqrt (.div (.mul (.var 0) (.add (.num 1 1) (.var 0))) (.pow (.add (.num 1 1) (.mul (.num 2 1) (.var 0))) 2)))) (.sub (.sub (.sub (.add (.mul (.num 12 1) (.sqrt (.mul (.var 1) (.add (.num 3 1) (.mul (.num 2 1) (.var 1)))))) (.mul (.num 2 1) (.sqrt (.mul (.pow (.var 1) 3) (.add (.num 3 1) (.mul (.num 2 1) (.var 1))))))) (.mul (.num 16 1) (.sqrt (.mul (.pow (.var 1) 5) (.add (.num 3 1) (.mul (.num 2 1) (.var 1))))))) (.mul (.num 11 1) (.sqrt (.mul (.pow (.var 1) 7) (.add (.num 3 1) (.mul (.num 2 1) (.var 1))))))) (.mul (.num 2 1) (.sqrt (.mul (.pow (.var 1) 9) (.add (.num 3 1) (.mul (.num 2 1) (.var 1)))))))) (.mul (.mul (.var 1) (.add (.num 1 1) (.var 1))) (.hpow (.add (.add (.num 6 1) (.mul (.num 7 1) (.var 1))) (.mul (.num 2 1) (.pow (.var 1) 2))) 1)),
  .div (.mul (.mul (.mul (.neg (.num 2 1)) (.sqrt (.num 2 1))) (.sqrt (.div (.mul (.add (.num 1 1) (.var 0)) (.add (.num 1 1) (.var 1))) (.add (.var 1) (.mul (.mul (.num 2 1) (.var 0)) (.var 1)))))) (.add (.add (.add (.add (.mul (.num 150 1) (.sqrt (.div (.mul (.var 0) (.var 1)) (.add (.add (.add (.num 2 1) (.mul (.num 4 1) (.var 0))) (.var 1)) (.mul (.mul (.num 2 1) (.var 0)) (.var 1)))))) (.mul (.num 295 1) (.sqrt (.div (.mul (.var 0) (.pow (.var 1) 3)) (.add (.add (.add (.num 2 1) (.mul (.num 4 1) (.var 0))) (.var 1)) (.mul (.mul (.num 2 1) (.var 0)) (.var 1))))))) (.mul (.num 214 1) (.sqrt (.div (.mul (.var 0) (.pow (.var 1) 5)) (.add (.add (.add (.num 2 1) (.mul (.num 4 1) (.var 0))) (.var 1)) (.mul (.mul (.num 2 1) (.var 0)) (.var 1))))))) (.mul (.num 68 1) (.sqrt (.div (.mul (.var 0) (.pow (.var 1) 7)) (.add (.add (.add (.num 2 1) (.mul (.num 4 1) (.var 0))) (.var 1)) (.mul (.mul (.num 2 1) (.var 0)) (.var 1))))))) (.mul (.num 8 1) (.sqrt (.div (.mul (.var 0) (.pow (.var 1) 9)) (.add (.add (.add (.num 2 1) (.mul (.num 4 1) (.var 0))) (.var 1)) (.mul (.mul (.num 2 1) (.var 0)) (.var 1)))))))) (.mul (.pow (.add (.num 5 1) (.mul (.num 2 1) (.var 1))) 2) (.add (.add (.add (.num 6 1) (.mul (.num 13 1) (.var 1))) (.mul (.num 9 1) (.pow (.var 1) 2))) (.mul (.num 2 1) (.pow (.var 1) 3)))),
  .mul (.mul (.mul (.num 2 1) (.sqrt (.num 2 1))) (.add (.num 5 1) (.mul (.num 2 1) (.var 1)))) (.sqrt (.div (.mul (.var 0) (.add (.num 1 1) (.var 0))) (.mul (.mul (.pow (.add (.num 1 1) (.mul (.num 2 1) (.var 0))) 2) (.add (.add (.num 5 1) (.mul (.num 7 1) (.var 1))) (.mul (.num 2 1) (.pow (.var 1) 2)))) (.add (.add (.num 6 1) (.mul (.num 7 1) (.var 1))) (.mul (.num 2 1) (.pow (.var 1) 2)))))),
  .div (.mul (.mul (.neg (.num 2 1)) (.sqrt (.div (.add (.num 1 1) (.var 0)) (.mul (.add (.num 1 1) (.mul (.num 2 1) (.var 0))) (.add (.add (.add (.num 30 1) (.mul (.num 47 1) (.var 1))) (.mul (.num 24 1) (.pow (.var 1) 2))) (.mul (.num 4 1) (.pow (.var 1) 3))))))) (.add (.add (.add (.add (.mul (.mul (.num 4 1) (.add (.num 1 1) (.mul (.num 2 1) (.var 1)))) (.sqrt (.div (.mul (.mul (.var 0) (.var 1)) (.add (.add (.num 3 1) (.mul (.num 5 1) (.var 1))) (.mul (.num 2 1) (.pow (.var 1) 2)))) (.mul (.add (.num 1 1) (.mul (.num 2 1) (.var 0))) (.add (.add (.num 15 1) (.mul (.num 11 1) (.var 1))) (.mul (.num 2 1) (.pow (.var 1) 2))))))) (.mul (.mul (.add (.num 2 1) (.var 1)) (.add (.num 1 1) (.mul (.num 2 1) (.var 1)))) (.sqrt (.div (.mul (.mul (.var 0) (.var 1)) (.add (.add (.num 3 1) (.mul (.num 5 1) (.var 1))) (.mul (.num 2 1) (.pow (.var 1) 2)))) (.mul (.add (.num 1 1) (.mul (.num 2 1) (.var 0))) (.add (.add (.num 15 1) (.mul (.num 11 1) (.var 1))) (.mul (.num 2 1) (.pow (.var 1) 2)))))))) (.mul (.mul (.num 18 1) (.add (.num 1 1) (.mul (.num 2 1) (.var 1)))) (.sqrt (.div (.mul (.mul (.var 0) (.var 1)) (.add (.num 1 1) (.var 1))) (.mul (.add (.num 1 1) (.mul (.num 2 1) (.var 0))) (.add (.add (.add (.num 45 1) (.mul (.num 63 1) (.var 1))) (.mul (.num 28 1) (.pow (.var 1) 2))) (.mul (.num 4 1) (.pow (.var 1) 3)))))))) (.mul (.num 30 1) (.sqrt (.div (.mul (.var 0) (.var 1)) (.mul (.add (.num 1 1) (.mul (.num 2 1) (.var 0))) (.add (.add (.add (.add (.num 45 1) (.mul (.num 108 1) (.var 1))) (.mul (.num 91 1) (.pow (.var 1) 2))) (.mul (.num 32 1) (.pow (.var 1) 3))) (.mul (.num 4 1) (.pow (.var 1) 4)))))))) (.mul (.mul (.num 24 1) (.add (.num 1 1) (.mul (.num 2 1) (.var 1)))) (.sqrt (.div (.mul (.var 0) (.var 1)) (.mul (.add (.num 1 1) (.mul (.num 2 1) (.var 0))) (.add (.add (.add (.add (.num 45 1) (.mul (.num 108 1) (.var 1))) (.mul (.num 91 1) (.pow (.var 1) 2))) (.mul (.num 32 1) (.pow (.var 1) 3))) (.mul (.num 4 1) (.pow (.var 1) 4))))))))) (.add (.num 2 1) (.var 1)),
  .div (.num 1 1) (.mul (.add (.num 1 1) (.mul (.num 2 1) (.var 0))) (.sqrt (.div (.mul (.add (.neg (.num 1 1)) (.var 1)) (.var 1)) (.add (.sub (.neg (.num 2 1)) (.var 1)) (.pow (.var 1) 2))))),
  .div (.sqrt (.div (.add (.neg (.num 6 1)) (.mul (.num 4 1) (.var 1))) (.add (.sub (.var 1) (.mul (.num 3 1) (.pow (.var 1) 2))) (.mul (.num 2 1) (.pow (.var 1) 3))))) (.add (.num 1 1) (.mul (.num 2 1) (.var 0))),
  .neg (.sqrt (.div (.add (.neg (.num 6 1)) (.mul (.num 4 1) (.var 1))) (.add (.sub (.var 1) (.mul (.num 3 1) (.pow (.var 1) 2))) (.mul (.num 2 1) (.pow (.var 1) 3))))),
  .div (.add (.neg (.num 3 1)) (.pow (.var 1) 2)) (.mul (.add (.var 1) (.mul (.mul (.num 2 1) (.var 0)) (.var 1))) (.sqrt (.add (.neg (.num 1 1)) (.pow (.var 1) 2)))),
  .div (.mul (.sqrt (.num 3 1)) (.add (.add (.neg (.num 3 1)) (.var 1)) (.mul (.num 2 1) (.pow (.var 1) 2)))) (.mul (.add (.var 1) (.mul (.mul (.num 2 1) (.var 0)) (.var 1))) (.sqrt (.add (.add (.sub (.sub (.neg (.num 3 1)) (.mul (.num 8 1) (.var 1))) (.pow (.var 1) 2)) (.mul (.num 8 1) (.pow (.var 1) 3))) (.mul (.num 4 1) (.pow (.var 1) 4))))),
  .div (.sub (.num 3 1) (.pow (.var 1) 2)) (.mul (.var 1) (.sqrt (.add (.neg (.num 1 1)) (.pow (.var 1) 2)))),
  .neg (.div (.mul (.sqrt (.num 3 1)) (.add (.add (.neg (.num 3 1)) (.var 1)) (.mul (.num 2 1) (.pow (.var 1) 2)))) (.mul (.var 1) (.sqrt (.mul (.add (.num 1 1) (.var 1)) (.add (.add (.sub (.neg (.num 3 1)) (.mul (.num 5 1) (.var 1))) (.mul (.num 4 1) (.pow (.var 1) 2))) (.mul (.num 4 1) (.pow (.var 1) 3))))))),
  .neg (.div (.mul (.sqrt (.num 3 1)) (.add (.add (.neg (.num 3 1)) (.var 1)) (.mul (.num 2 1) (.pow (.var 1) 2)))) (.mul (.add (.var 1) (.mul (.mul (.num 2 1) (.var 0)) (.var 1))) (.sqrt (.mul (.add (.num 1 1) (.var 1)) (.add (.sub (.num 3 1) (.mul (.num 7 1) (.var 1))) (.mul (.num 4 1) (.pow (.var 1) 3))))))),
  .div (.add (.add (.neg (.num 3 1)) (.var 1)) (.pow (.var 1) 2)) (.mul (.add (.num 1 1) (.var 1)) (.add (.var 1) (.mul (.mul (.num 2 1) (.var 0)) (.var 1)))),
  .mul (.mul (.sqrt (.num 3 1)) (.sqrt (.mul (.add (.num 1 1) (.var 0)) (.add (.num 1 1) (.var 1))))) (.sub (.sub (.add (.add (.add (.div (.mul (.mul (.neg (.num 24 1)) (.var 0)) (.sqrt (.div (.add (.neg (.num 1 1)) (.mul (.num 2 1) (.var 1))) (.mul (.mul (.mul (.add (.num 1 1) (.var 0)) (.var 1)) (.add (.num 2 1) (.var 1))) (.pow (.add (.add (.num 3 1) (.mul (.num 5 1) (.var 1))) (.mul (.num 2 1) (.pow (.var 1) 2))) 3))))) (.add (.num 1 1) (.mul (.num 2 1) (.var 0)))) (.div (.mul (.mul (.mul (.num 2 1) (.add (.neg (.num 1 1)) (.var 1))) (.var 1)) (.add (.neg (.num 1 1)) (.mul (.num 2 1) (.var 1)))) (.mul (.sqrt (.mul (.mul (.add (.num 1 1) (.var 0)) (.var 1)) (.add (.add (.neg (.num 2 1)) (.mul (.num 3 1) (.var 1))) (.mul (.num 2 1) (.pow (.var 1) 2))))) (.hpow (.add (.add (.num 3 1) (.mul (.num 5 1) (.var 1))) (.mul (.num 2 1) (.pow (.var 1) 2))) 1)))) (.div (.mul (.num 12 1) (.sqrt (.div (.add (.neg (.num 1 1)) (.mul (.num 2 1) (.var 1))) (.mul (.mul (.add (.num 1 1) (.var 0)) (.var 1)) (.add (.add (.add (.num 6 1) (.mul (.num 13 1) (.var 1))) (.mul (.num 9 1) (.pow (.var 1) 2))) (.mul (.num 2 1) (.pow (.var 1) 3))))))) (.add (.add (.num 3 1) (.mul (.num 5 1) (.var 1))) (.mul (.num 2 1) (.pow (.var 1) 2))))) (.div (.mul (.mul (.num 3 1) (.add (.neg (.num 2 1)) (.mul (.num 3 1) (.var 1)))) (.sqrt (.div (.add (.neg (.num 1 1)) (.mul (.num 2 1) (.var 1))) (.mul (.mul (.add (.num 1 1) (.var 0)) (.var 1)) (.add (.add (.add (.num 6 1) (.mul (.num 13 1) (.var 1))) (.mul (.num 9 1) (.pow (.var 1) 2))) (.mul (.num 2 1) (.pow (.var 1) 3))))))) (.add (.add (.num 3 1) (.mul (.num 5 1) (.var 1))) (.mul (.num 2 1) (.pow (.var 1) 2))))) (.div (.mul (.mul (.mul (.mul (.num 4 1) (.var 0)) (.add (.neg (.num 1 1)) (.var 1))) (.var 1)) (.add (.neg (.num 1 1)) (.mul (.num 2 1) (.var 1)))) (.mul (.mul (.add (.num 1 1) (.mul (.num 2 1) (.var 0))) (.add (.add (.num 3 1) (.mul (.num 5 1) (.var 1))) (.mul (.num 2 1) (.pow (.var 1) 2)))) (.sqrt (.mul (.mul (.add (.num 1 1) (.var 0)) (.var 1)) (.add (.add (.add (.sub (.neg (.num 6 1)) (.var 1)) (.mul (.num 17 1) (.pow (.var 1) 2))) (.mul (.num 16 1) (.pow (.var 1) 3))) (.mul (.num 4 1) (.pow (.var 1) 4)))))))) (.div (.mul (.mul (.mul (.num 6 1) (.var 0)) (.add (.neg (.num 1 1)) (.mul (.num 2 1) (.var 1)))) (.add (.neg (.num 2 1)) (.mul (.num 3 1) (.var 1)))) (.mul (.mul (.add (.num 1 1) (.mul (.num 2 1) (.var 0))) (.add (.add (.num 3 1) (.mul (.num 5 1) (.var 1))) (.mul (.num 2 1) (.pow (.var 1) 2)))) (.sqrt (.mul (.mul (.add (.num 1 1) (.var 0)) (.var 1)) (.add (.add (.add (.sub (.neg (.num 6 1)) (.var 1)) (.mul (.num 17 1) (.pow (.var 1) 2))) (.mul (.num 16 1) (.pow (.var 1) 3))) (.mul (.num 4 1) (.pow (.var 1) 4)))))))),
  .div (.mul (.sqrt (.num 3 1)) (.add (.add (.neg (.num 3 1)) (.var 1)) (.mul (.num 2 1) (.pow (.var 1) 2)))) (.mul (.var 1) (.sqrt (.mul (.add (.num 1 1) (.var 1)) (.add (.sub (.num 3 1) (.mul (.num 7 1) (.var 1))) (.mul (.num 4 1) (.pow (.var 1) 3)))))),
  .neg (.div (.add (.add (.neg (.num 3 1)) (.var 1)) (.pow (.var 1) 2)) (.mul (.var 1) (.add (.num 1 1) (.var 1)))),
  .mul (.mul (.sqrt (.num 3 1)) (.sqrt (.mul (.add (.num 1 1) (.var 0)) (.add (.num 1 1) (.var 1))))) (.sub (.sub (.sub (.sub (.sub (.div (.mul (.mul (.mul (.mul (.neg (.num 2 1)) (.add (.num 1 1) (.mul (.num 2 1) (.var 0)))) (.add (.neg (.num 1 1)) (.var 1))) (.var 1)) (.add (.neg (.num 1 1)) (.mul (.num 2 1) (.var 1)))) (.mul (.mul (.add (.num 3 1) (.mul (.num 2 1) (.var 0))) (.sqrt (.mul (.mul (.add (.num 1 1) (.var 0)) (.var 1)) (.add (.add (.neg (.num 2 1)) (.mul (.num 3 1) (.var 1))) (.mul (.num 2 1) (.pow (.var 1) 2)))))) (.hpow (.add (.add (.num 3 1) (.mul (.num 5 1) (.var 1))) (.mul (.num 2 1) (.pow (.var 1) 2))) 1))) (.div (.mul (.mul (.mul (.num 3 1) (.add (.num 1 1) (.mul (.num 2 1) (.var 0)))) (.add (.neg (.num 1 1)) (.mul (.num 2 1) (.var 1)))) (.add (.neg (.num 2 1)) (.mul (.num 3 1) (.var 1)))) (.mul (.mul (.add (.num 3 1) (.mul (.num 2 1) (.var 0))) (.sqrt (.mul (.mul (.add (.num 1 1) (.var 0)) (.var 1)) (.add (.add (.neg (.num 2 1)) (.mul (.num 3 1) (.var 1))) (.mul (.num 2 1) (.pow (.var 1) 2)))))) (.hpow (.add (.add (.num 3 1) (.mul (.num 5 1) (.var 1))) (.mul (.num 2 1) (.pow (.var 1) 2))) 1)))) (.div (.num 24 1) (.sqrt (.div (.mul (.mul (.mul (.mul (.add (.num 1 1) (.var 0)) (.pow (.add (.num 3 1) (.mul (.num 2 1) (.var 0))) 2)) (.var 1)) (.add (.num 2 1) (.var 1))) (.pow (.add (.add (.num 3 1) (.mul (.num 5 1) (.var 1))) (.mul (.num 2 1) (.pow (.var 1) 2))) 3)) (.add (.neg (.num 1 1)) (.mul (.num 2 1) (.var 1))))))) (.div (.mul (.mul (.num 12 1) (.add (.num 1 1) (.mul (.num 2 1) (.var 0)))) (.sqrt (.div (.add (.neg (.num 1 1)) (.mul (.num 2 1) (.var 1))) (.mul (.mul (.add (.num 1 1) (.var 0)) (.var 1)) (.add (.add (.add (.num 6 1) (.mul (.num 13 1) (.var 1))) (.mul (.num 9 1) (.pow (.var 1) 2))) (.mul (.num 2 1) (.pow (.var 1) 3))))))) (.mul (.add (.num 3 1) (.mul (.num 2 1) (.var 0))) (.add (.add (.num 3 1) (.mul (.num 5 1) (.var 1))) (.mul (.num 2 1) (.pow (.var 1) 2)))))) (.div (.mul (.mul (.mul (.num 4 1) (.add (.neg (.num 1 1)) (.var 1))) (.var 1)) (.add (.neg (.num 1 1)) (.mul (.num 2 1) (.var 1)))) (.mul (.mul (.add (.num 3 1) (.mul (.num 2 1) (.var 0))) (.add (.add (.num 3 1) (.mul (.num 5 1) (.var 1))) (.mul (.num 2 1) (.pow (.var 1) 2)))) (.sqrt (.mul (.mul (.add (.num 1 1) (.var 0)) (.var 1)) (.add (.add (.add (.sub (.neg (.num 6 1)) (.var 1)) (.mul (.num 17 1) (.pow (.var 1) 2))) (.mul (.num 16 1) (.pow (.var 1) 3))) (.mul (.num 4 1) (.pow (.var 1) 4)))))))) (.div (.mul (.mul (.num 6 1) (.add (.neg (.num 1 1)) (.mul (.num 2 1) (.var 1)))) (.add (.neg (.num 2 1)) (.mul (.num 3 1) (.var 1)))) (.mul (.mul (.add (.num 3 1) (.mul (.num 2 1) (.var 0))) (.add (.add (.num 3 1) (.mul (.num 5 1) (.var 1))) (.mul (.num 2 1) (.pow (.var 1) 2)))) (.sqrt (.mul (.mul (.add (.num 1 1) (.var 0)) (.var 1)) (.add (.add (.add (.sub (.neg (.num 6 1)) (.var 1)) (.mul (.num 17 1) (.pow (.var 1) 2))) (.mul (.num 16 1) (.pow (.var 1) 3))) (.mul (.num 4 1) (.pow (.var 1) 4)))))))),
  .mul (.mul (.sqrt (.num 3 1)) (.sqrt (.mul (.add (.num 1 1) (.var 0)) (.add (.num 1 1) (.var 1))))) (.sub (.sub (.add (.add (.add (.add (.sub (.mul (.mul (.var 1) (.add (.sub (.num 3 1) (.mul (.num 7 1) (.var 1))) (.mul (.num 2 1) (.pow (.var 1) 2)))) (.sqrt (.div (.add (.num 1 1) (.mul (.num 2 1) (.var 1))) (.mul (.mul (.mul (.mul (.add (.num 1 1) (.var 0)) (.var 1)) (.pow (.add (.num 1 1) (.var 1)) 3)) (.pow (.add (.num 3 1) (.mul (.num 2 1) (.var 1))) 2)) (.add (.add (.neg (.num 2 1)) (.mul (.num 3 1) (.var 1))) (.mul (.num 2 1) (.pow (.var 1) 2))))))) (.mul (.mul (.mul (.num 2 1) (.var 1)) (.add (.sub (.num 3 1) (.mul (.num 7 1) (.var 1))) (.mul (.num 2 1) (.pow (.var 1) 2)))) (.sqrt (.div (.mul (.pow (.var 0) 2) (.add (.num 1 1) (.mul (.num 2 1) (.var 1)))) (.mul (.mul (.mul (.mul (.mul (.add (.num 1 1) (.var 0)) (.pow (.add (.num 1 1) (.mul (.num 2 1) (.var 0))) 2)) (.var 1)) (.pow (.add (.num 1 1) (.var 1)) 3)) (.pow (.add (.num 3 1) (.mul (.num 2 1) (.var 1))) 2)) (.add (.add (.neg (.num 2 1)) (.mul (.num 3 1) (.var 1))) (.mul (.num 2 1) (.pow (.var 1) 2)))))))) (.mul (.num 6 1) (.sqrt (.div (.mul (.pow (.add (.neg (.num 1 1)) (.var 1)) 2) (.add (.neg (.num 1 1)) (.mul (.num 2 1) (.var 1)))) (.mul (.mul (.mul (.mul (.add (.num 1 1) (.var 0)) (.var 1)) (.pow (.add (.num 1 1) (.var 1)) 3)) (.pow (.add (.num 3 1) (.mul (.num 2 1) (.var 1))) 2)) (.add (.add (.num 2 1) (.mul (.num 5 1) (.var 1))) (.mul (.num 2 1) (.pow (.var 1) 2)))))))) (.div (.mul (.mul (.mul (.num 2 1) (.var 0)) (.var 1)) (.add (.neg (.num 1 1)) (.mul (.num 2 1) (.var 1)))) (.mul (.add (.num 1 1) (.mul (.num 2 1) (.var 0))) (.sqrt (.div (.mul (.mul (.mul (.add (.num 1 1) (.var 0)) (.var 1)) (.pow (.add (.num 3 1) (.mul (.num 2 1) (.var 1))) 2)) (.add (.add (.add (.neg (.num 2 1)) (.var 1)) (.mul (.num 5 1) (.pow (.var 1) 2))) (.mul (.num 2 1) (.pow (.var 1) 3)))) (.add (.num 1 1) (.mul (.num 2 1) (.var 1)))))))) (.div (.sub (.var 1) (.mul (.num 2 1) (.pow (.var 1) 2))) (.sqrt (.div (.mul (.mul (.mul (.add (.num 1 1) (.var 0)) (.var 1)) (.pow (.add (.num 3 1) (.mul (.num 2 1) (.var 1))) 2)) (.add (.add (.add (.neg (.num 2 1)) (.var 1)) (.mul (.num 5 1) (.pow (.var 1) 2))) (.mul (.num 2 1) (.pow (.var 1) 3)))) (.add (.num 1 1) (.mul (.num 2 1) (.var 1))))))) (.div (.mul (.mul (.num 3 1) (.add (.neg (.num 3 1)) (.mul (.num 2 1) (.var 1)))) (.sqrt (.div (.mul (.var 1) (.add (.neg (.num 1 1)) (.mul (.num 2 1) (.var 1)))) (.mul (.add (.num 1 1) (.var 0)) (.add (.add (.add (.num 2 1) (.mul (.num 7 1) (.var 1))) (.mul (.num 7 1) (.pow (.var 1) 2))) (.mul (.num 2 1) (.pow (.var 1) 3))))))) (.add (.add (.num 3 1) (.mul (.num 5 1) (.var 1))) (.mul (.num 2 1) (.pow (.var 1) 2))))) (.div (.mul (.mul (.mul (.num 12 1) (.var 0)) (.add (.neg (.num 1 1)) (.var 1))) (.sqrt (.div (.add (.neg (.num 1 1)) (.mul (.num 2 1) (.var 1))) (.mul (.mul (.mul (.add (.num 1 1) (.var 0)) (.var 1)) (.pow (.add (.num 3 1) (.mul (.num 2 1) (.var 1))) 2)) (.add (.add (.add (.num 2 1) (.mul (.num 7 1) (.var 1))) (.mul (.num 7 1) (.pow (.var 1) 2))) (.mul (.num 2 1) (.pow (.var 1) 3))))))) (.mul (.add (.num 1 1) (.mul (.num 2 1) (.var 0))) (.add (.num 1 1) (.var 1))))) (.div (.mul (.mul (.mul (.mul (.num 6 1) (.var 0)) (.var 1)) (.add (.neg (.num 3 1)) (.mul (.num 2 1) (.var 1)))) (.sqrt (.div (.add (.neg (.num 1 1)) (.mul (.num 2 1) (.var 1))) (.mul (.mul (.mul (.add (.num 1 1) (.var 0)) (.var 1)) (.pow (.add (.num 3 1) (.mul (.num 2 1) (.var 1))) 2)) (.add (.add (.add (.num 2 1) (.mul (.num 7 1) (.var 1))) (.mul (.num 7 1) (.pow (.var 1) 2))) (.mul (.num 2 1) (.pow (.var 1) 3))))))) (.mul (.add (.num 1 1) (.mul (.num 2 1) (.var 0))) (.add (.num 1 1) (.var 1))))),
  .mul (.sqrt (.mul (.add (.num 1 1) (.var 0)) (.add (.num 1 1) (.var 1)))) (.add (.sub (.sub (.sub (.add (.sub (.add (.div (.mul (.add (.neg (.num 2 1)) (.var 1)) (.var 1)) (.sqrt (.div (.mul (.mul (.mul (.mul (.add (.num 1 1) (.var 0)) (.var 1)) (.add (.num 1 1) (.var 1))) (.pow (.add (.num 2 1) (.var 1)) 3)) (.pow (.add (.num 3 1) (.mul (.num 2 1) (.var 1))) 2)) (.pow (.add (.num 1 1) (.mul (.num 2 1) (.var 1))) 2)))) (.div (.mul (.num 12 1) (.add (.neg (.num 1 1)) (.mul (.num 2 1) (.var 1)))) (.mul (.mul (.sqrt (.mul (.add (.num 1 1) (.var 0)) (.var 1))) (.add (.num 3 1) (.mul (.num 2 1) (.var 1)))) (.hpow (.add (.add (.num 2 1) (.mul (.num 3 1) (.var 1))) (.pow (.var 1) 2)) 1)))) (.div (.mul (.mul (.num 24 1) (.var 0)) (.add (.neg (.num 1 1)) (.mul (.num 2 1) (.var 1)))) (.mul (.mul (.mul (.add (.num 1 1) (.mul (.num 2 1) (.var 0))) (.sqrt (.mul (.add (.num 1 1) (.var 0)) (.var 1)))) (.add (.num 3 1) (.mul (.num 2 1) (.var 1)))) (.hpow (.add (.add (.num 2 1) (.mul (.num 3 1) (.var 1))) (.pow (.var 1) 2)) 1)))) (.div (.mul (.mul (.mul (.num 6 1) (.add (.neg (.num 1 1)) (.var 1))) (.var 1)) (.add (.num 1 1) (.mul (.num 2 1) (.var 1)))) (.mul (.mul (.sqrt (.mul (.add (.num 1 1) (.var 0)) (.var 1))) (.add (.num 3 1) (.mul (.num 2 1) (.var 1)))) (.hpow (.add (.add (.num 2 1) (.mul (.num 3 1) (.var 1))) (.pow (.var 1) 2)) 1)))) (.div (.mul (.mul (.mul (.num 18 1) (.var 0)) (.var 1)) (.add (.neg (.num 2 1)) (.mul (.num 3 1) (.var 1)))) (.mul (.mul (.mul (.add (.num 1 1) (.mul (.num 2 1) (.var 0))) (.sqrt (.mul (.add (.num 1 1) (.var 0)) (.var 1)))) (.add (.num 3 1) (.mul (.num 2 1) (.var 1)))) (.hpow (.add (.add (.num 2 1) (.mul (.num 3 1) (.var 1))) (.pow (.var 1) 2)) 1)))) (.div (.mul (.mul (.mul (.num 12 1) (.add (.neg (.num 1 1)) (.var 1))) (.var 1)) (.add (.var 0) (.mul (.mul (.num 2 1) (.var 0)) (.var 1)))) (.mul (.mul (.mul (.add (.num 1 1) (.mul (.num 2 1) (.var 0))) (.sqrt (.mul (.add (.num 1 1) (.var 0)) (.var 1)))) (.add (.num 3 1) (.mul (.num 2 1) (.var 1)))) (.hpow (.add (.add (.num 2 1) (.mul (.num 3 1) (.var 1))) (.pow (.var 1) 2)) 1)))) (.div (.mul (.mul (.mul (.mul (.num 2 1) (.var 0)) (.add (.neg (.num 2 1)) (.var 1))) (.var 1)) (.add (.num 1 1) (.mul (.num 2 1) (.var 1)))) (.mul (.mul (.mul (.add (.num 1 1) (.mul (.num 2 1) (.var 0))) (.add (.num 2 1) (.var 1))) (.add (.num 3 1) (.mul (.num 2 1) (.var 1)))) (.sqrt (.mul (.mul (.add (.num 1 1) (.var 0)) (.var 1)) (.add (.add (.num 2 1) (.mul (.num 3 1) (.var 1))) (.pow (.var 1) 2))))))) (.div (.mul (.mul (.num 9 1) (.add (.neg (.num 2 1)) (.mul (.num 3 1) (.var 1)))) (.sqrt (.div (.var 1) (.mul (.add (.num 1 1) (.var 0)) (.add (.add (.num 2 1) (.mul (.num 3 1) (.var 1))) (.pow (.var 1) 2)))))) (.add (.add (.add (.num 6 1) (.mul (.num 13 1) (.var 1))) (.mul (.num 9 1) (.pow (.var 1) 2))) (.mul (.num 2 1) (.pow (.var 1) 3))))),
  .div (.sqrt (.num 2 1)) (.mul (.add (.num 1 1) (.mul (.num 2 1) (.var 0))) (.sqrt (.mul (.add (.num 1 1) (.var 1)) (.add (.num 2 1) (.var 1))))),
  .mul (.mul (.sqrt (.num 3 1)) (.sqrt (.mul (.add (.num 1 1) (.var 0)) (.add (.num 1 1) (.var 1))))) (.sub (.sub (.add (.add (.sub (.sub (.sub (.neg (.mul (.mul (.var 1) (.add (.sub (.num 3 1) (.mul (.num 7 1) (.var 1))) (.mul (.num 2 1) (.pow (.var 1) 2)))) (.sqrt (.div (.mul (.pow (.add (.num 1 1) (.mul (.num 2 1) (.var 0))) 2) (.add (.num 1 1) (.mul (.num 2 1) (.var 1)))) (.mul (.mul (.mul (.mul (.mul (.add (.num 1 1) (.var 0)) (.pow (.add (.num 3 1) (.mul (.num 2 1) (.var 0))) 2)) (.var 1)) (.pow (.add (.num 1 1) (.var 1)) 3)) (.pow (.add (.num 3 1) (.mul (.num 2 1) (.var 1))) 2)) (.add (.add (.neg (.num 2 1)) (.mul (.num 3 1) (.var 1))) (.mul (.num 2 1) (.pow (.var 1) 2)))))))) (.div (.mul (.mul (.num 2 1) (.var 1)) (.add (.sub (.num 3 1) (.mul (.num 7 1) (.var 1))) (.mul (.num 2 1) (.pow (.var 1) 2)))) (.sqrt (.div (.mul (.mul (.mul (.mul (.mul (.add (.num 1 1) (.var 0)) (.pow (.add (.num 3 1) (.mul (.num 2 1) (.var 0))) 2)) (.var 1)) (.pow (.add (.num 1 1) (.var 1)) 3)) (.pow (.add (.num 3 1) (.mul (.num 2 1) (.var 1))) 2)) (.add (.add (.neg (.num 2 1)) (.mul (.num 3 1) (.var 1))) (.mul (.num 2 1) (.pow (.var 1) 2)))) (.add (.num 1 1) (.mul (.num 2 1) (.var 1))))))) (.mul (.mul (.mul (.num 3 1) (.var 1)) (.add (.neg (.num 3 1)) (.mul (.num 2 1) (.var 1)))) (.sqrt (.div (.mul (.pow (.add (.num 1 1) (.mul (.num 2 1) (.var 0))) 2) (.add (.neg (.num 1 1)) (.mul (.num 2 1) (.var 1)))) (.mul (.mul (.mul (.mul (.mul (.add (.num 1 1) (.var 0)) (.pow (.add (.num 3 1) (.mul (.num 2 1) (.var 0))) 2)) (.var 1)) (.pow (.add (.num 1 1) (.var 1)) 3)) (.pow (.add (.num 3 1) (.mul (.num 2 1) (.var 1))) 2)) (.add (.add (.num 2 1) (.mul (.num 5 1) (.var 1))) (.mul (.num 2 1) (.pow (.var 1) 2)))))))) (.div (.mul (.mul (.num 6 1) (.add (.num 1 1) (.mul (.num 2 1) (.var 0)))) (.add (.neg (.num 1 1)) (.var 1))) (.mul (.mul (.hpow (.add (.num 1 1) (.var 1)) 1) (.add (.num 3 1) (.mul (.num 2 1) (.var 1)))) (.sqrt (.div (.mul (.mul (.mul (.add (.num 1 1) (.var 0)) (.pow (.add (.num 3 1) (.mul (.num 2 1) (.var 0))) 2)) (.var 1)) (.add (.add (.num 2 1) (.mul (.num 5 1) (.var 1))) (.mul (.num 2 1) (.pow (.var 1) 2)))) (.add (.neg (.num 1 1)) (.mul (.num 2 1) (.var 1)))))))) (.div (.mul (.mul (.mul (.num 2 1) (.var 1)) (.add (.neg (.num 1 1)) (.mul (.num 2 1) (.var 1)))) (.sqrt (.div (.add (.num 1 1) (.mul (.num 2 1) (.var 1))) (.mul (.mul (.add (.num 1 1) (.var 0)) (.var 1)) (.add (.add (.add (.neg (.num 2 1)) (.var 1)) (.mul (.num 5 1) (.pow (.var 1) 2))) (.mul (.num 2 1) (.pow (.var 1) 3))))))) (.mul (.add (.num 3 1) (.mul (.num 2 1) (.var 0))) (.add (.num 3 1) (.mul (.num 2 1) (.var 1)))))) (.div (.mul (.mul (.add (.num 1 1) (.mul (.num 2 1) (.var 0))) (.var 1)) (.add (.neg (.num 1 1)) (.mul (.num 2 1) (.var 1)))) (.mul (.mul (.add (.num 3 1) (.mul (.num 2 1) (.var 0))) (.add (.num 3 1) (.mul (.num 2 1) (.var 1)))) (.sqrt (.div (.mul (.mul (.add (.num 1 1) (.var 0)) (.var 1)) (.add (.add (.add (.neg (.num 2 1)) (.var 1)) (.mul (.num 5 1) (.pow (.var 1) 2))) (.mul (.num 2 1) (.pow (.var 1) 3)))) (.add (.num 1 1) (.mul (.num 2 1) (.var 1)))))))) (.div (.mul (.mul (.num 6 1) (.add (.neg (.num 3 1)) (.mul (.num 2 1) (.var 1)))) (.sqrt (.div (.mul (.var 1) (.add (.neg (.num 1 1)) (.mul (.num 2 1) (.var 1)))) (.mul (.mul (.add (.num 1 1) (.var 0)) (.pow (.add (.num 3 1) (.mul (.num 2 1) (.var 0))) 2)) (.add (.add (.add (.num 2 1) (.mul (.num 7 1) (.var 1))) (.mul (.num 7 1) (.pow (.var 1) 2))) (.mul (.num 2 1) (.pow (.var 1) 3))))))) (.add (.add (.num 3 1) (.mul (.num 5 1) (.var 1))) (.mul (.num 2 1) (.pow (.var 1) 2))))) (.div (.mul (.mul (.num 12 1) (.add (.neg (.num 1 1)) (.var 1))) (.sqrt (.div (.add (.neg (.num 1 1)) (.mul (.num 2 1) (.var 1))) (.mul (.mul (.mul (.add (.num 1 1) (.var 0)) (.var 1)) (.pow (.add (.num 3 1) (.mul (.num 2 1) (.var 1))) 2)) (.add (.add (.add (.num 2 1) (.mul (.num 7 1) (.var 1))) (.mul (.num 7 1) (.pow (.var 1) 2))) (.mul (.num 2 1) (.pow (.var 1) 3))))))) (.mul (.add (.num 3 1) (.mul (.num 2 1) (.var 0))) (.add (.num 1 1) (.var 1))))),
  .neg (.div (.mul (.add (.num 1 1) (.var 0)) (.add (.add (.sub (.add (.add (.sub (.add (.mul (.neg (.num 36 1)) (.sqrt (.mul (.mul (.add (.num 1 1) (.var 0)) (.var 1)) (.add (.add (.num 2 1) (.mul (.num 3 1) (.var 1))) (.pow (.var 1) 2))))) (.mul (.mul (.num 30 1) (.var 1)) (.sqrt (.mul (.mul (.add (.num 1 1) (.var 0)) (.var 1)) (.add (.add (.num 2 1) (.mul (.num 3 1) (.var 1))) (.pow (.var 1) 2)))))) (.mul (.mul (.num 6 1) (.pow (.var 1) 2)) (.sqrt (.mul (.mul (.add (.num 1 1) (.var 0)) (.var 1)) (.add (.add (.num 2 1) (.mul (.num 3 1) (.var 1))) (.pow (.var 1) 2)))))) (.mul (.mul (.num 33 1) (.pow (.var 1) 3)) (.sqrt (.mul (.mul (.add (.num 1 1) (.var 0)) (.var 1)) (.add (.add (.num 2 1) (.mul (.num 3 1) (.var 1))) (.pow (.var 1) 2)))))) (.mul (.mul (.num 6 1) (.pow (.var 1) 4)) (.sqrt (.mul (.mul (.add (.num 1 1) (.var 0)) (.var 1)) (.add (.add (.num 2 1) (.mul (.num 3 1) (.var 1))) (.pow (.var 1) 2)))))) (.mul (.num 36 1) (.sqrt (.mul (.mul (.add (.num 1 1) (.var 0)) (.pow (.var 1) 3)) (.add (.add (.num 2 1) (.mul (.num 3 1) (.var 1))) (.pow (.var 1) 2)))))) (.mul (.num 54 1) (.sqrt (.mul (.mul (.add (.num 1 1) (.var 0)) (.pow (.var 1) 5)) (.add (.add (.num 2 1) (.mul (.num 3 1) (.var 1))) (.pow (.var 1) 2)))))) (.mul (.mul (.mul (.num 2 1) (.var 0)) (.sqrt (.mul (.mul (.add (.num 1 1) (.var 0)) (.var 1)) (.add (.add (.num 2 1) (.mul (.num 3 1) (.var 1))) (.pow (.var 1) 2))))) (.add (.add (.add (.sub (.neg (.num 12 1)) (.mul (.num 2 1) (.var 1))) (.mul (.num 16 1) (.pow (.var 1) 2))) (.mul (.num 11 1) (.pow (.var 1) 3))) (.mul (.num 2 1) (.pow (.var 1) 4)))))) (.mul (.mul (.mul (.mul (.add (.num 3 1) (.mul (.num 2 1) (.var 0))) (.var 1)) (.hpow (.mul (.add (.num 1 1) (.var 0)) (.add (.num 1 1) (.var 1))) 1)) (.pow (.add (.num 2 1) (.var 1)) 2)) (.add (.num 3 1) (.mul (.num 2 1) (.var 1))))),
  .neg (.div (.sqrt (.num 2 1)) (.sqrt (.add (.add (.num 2 1) (.mul (.num 3 1) (.var 1))) (.pow (.var 1) 2)))),
  .mul (.mul (.sqrt (.num 2 1)) (.sqrt (.mul (.add (.num 1 1) (.var 0)) (.add (.num 1 1) (.var 1))))) (.add (.add (.add (.sub (.add (.sub (.sub (.add (.add (.div (.mul (.mul (.neg (.num 12 1)) (.var 0)) (.add (.neg (.num 1 1)) (.mul (.num 2 1) (.var 1)))) (.mul (.mul (.mul (.add (.num 1 1) (.mul (.num 2 1) (.var 0))) (.add (.num 1 1) (.var 1))) (.sqrt (.mul (.add (.num 1 1) (.var 0)) (.add (.num 5 1) (.mul (.num 2 1) (.var 1)))))) (.hpow (.add (.add (.num 6 1) (.mul (.num 7 1) (.var 1))) (.mul (.num 2 1) (.pow (.var 1) 2))) 1))) (.div (.mul (.mul (.num 6 1) (.add (.neg (.num 1 1)) (.var 1))) (.add (.num 1 1) (.mul (.num 2 1) (.var 1)))) (.mul (.sqrt (.mul (.add (.num 1 1) (.var 0)) (.add (.num 5 1) (.mul (.num 2 1) (.var 1))))) (.hpow (.add (.add (.num 6 1) (.mul (.num 7 1) (.var 1))) (.mul (.num 2 1) (.pow (.var 1) 2))) 1)))) (.div (.mul (.mul (.num 3 1) (.add (.num 1 1) (.mul (.num 2 1) (.var 1)))) (.add (.neg (.num 2 1)) (.mul (.num 3 1) (.var 1)))) (.mul (.mul (.add (.num 1 1) (.var 1)) (.sqrt (.mul (.add (.num 1 1) (.var 0)) (.add (.num 5 1) (.mul (.num 2 1) (.var 1)))))) (.hpow (.add (.add (.num 6 1) (.mul (.num 7 1) (.var 1))) (.mul (.num 2 1) (.pow (.var 1) 2))) 1)))) (.div (.mul (.mul (.num 12 1) (.add (.neg (.num 1 1)) (.var 1))) (.add (.var 0) (.mul (.mul (.num 2 1) (.var 0)) (.var 1)))) (.mul (.mul (.add (.num 1 1) (.mul (.num 2 1) (.var 0))) (.sqrt (.mul (.add (.num 1 1) (.var 0)) (.add (.num 5 1) (.mul (.num 2 1) (.var 1)))))) (.hpow (.add (.add (.num 6 1) (.mul (.num 7 1) (.var 1))) (.mul (.num 2 1) (.pow (.var 1) 2))) 1)))) (.div (.mul (.mul (.num 6 1) (.add (.neg (.num 2 1)) (.mul (.num 3 1) (.var 1)))) (.add (.var 0) (.mul (.mul (.num 2 1) (.var 0)) (.var 1)))) (.mul (.mul (.mul (.add (.num 1 1) (.mul (.num 2 1) (.var 0))) (.add (.num 1 1) (.var 1))) (.sqrt (.mul (.add (.num 1 1) (.var 0)) (.add (.num 5 1) (.mul (.num 2 1) (.var 1)))))) (.hpow (.add (.add (.num 6 1) (.mul (.num 7 1) (.var 1))) (.mul (.num 2 1) (.pow (.var 1) 2))) 1)))) (.div (.mul (.mul (.num 2 1) (.var 0)) (.add (.num 1 1) (.mul (.num 2 1) (.var 1)))) (.mul (.add (.num 1 1) (.mul (.num 2 1) (.var 0))) (.sqrt (.mul (.mul (.add (.num 1 1) (.var 0)) (.add (.num 5 1) (.mul (.num 2 1) (.var 1)))) (.add (.add (.num 6 1) (.mul (.num 7 1) (.var 1))) (.mul (.num 2 1) (.pow (.var 1) 2)))))))) (.div (.mul (.mul (.num 2 1) (.add (.neg (.num 2 1)) (.var 1))) (.add (.var 0) (.mul (.mul (.num 2 1) (.var 0)) (.var 1)))) (.mul (.mul (.add (.num 1 1) (.mul (.num 2 1) (.var 0))) (.hpow (.add (.num 2 1) (.var 1)) 1)) (.sqrt (.mul (.add (.num 1 1) (.var 0)) (.add (.add (.num 15 1) (.mul (.num 16 1) (.var 1))) (.mul (.num 4 1) (.pow (.var 1) 2)))))))) (.div (.sub (.neg (.num 1 1)) (.mul (.num 2 1) (.var 1))) (.sqrt (.mul (.add (.num 1 1) (.var 0)) (.add (.add (.add (.num 30 1) (.mul (.num 47 1) (.var 1))) (.mul (.num 24 1) (.pow (.var 1) 2))) (.mul (.num 4 1) (.pow (.var 1) 3))))))) (.div (.mul (.add (.neg (.num 2 1)) (.var 1)) (.add (.num 1 1) (.mul (.num 2 1) (.var 1)))) (.mul (.add (.num 2 1) (.var 1)) (.sqrt (.mul (.add (.num 1 1) (.var 0)) (.add (.add (.add (.num 30 1) (.mul (.num 47 1) (.var 1))) (.mul (.num 24 1) (.pow (.var 1) 2))) (.mul (.num 4 1) (.pow (.var 1) 3)))))))) (.div (.mul (.num 6 1) (.add (.neg (.num 1 1)) (.mul (.num 2 1) (.var 1)))) (.mul (.mul (.add (.num 1 1) (.var 1)) (.add (.add (.num 6 1) (.mul (.num 7 1) (.var 1))) (.mul (.num 2 1) (.pow (.var 1) 2)))) (.sqrt (.mul (.add (.num 1 1) (.var 0)) (.add (.add (.add (.num 30 1) (.mul (.num 47 1) (.var 1))) (.mul (.num 24 1) (.pow (.var 1) 2))) (.mul (.num 4 1) (.pow (.var 1) 3)))))))),
  .div (.mul (.sqrt (.div (.add (.add (.num 1 1) (.mul (.num 3 1) (.var 1))) (.mul (.num 2 1) (.pow (.var 1) 2))) (.add (.add (.num 2 1) (.mul (.num 6 1) (.var 0))) (.mul (.num 4 1) (.pow (.var 0) 2))))) (.sub (.sub (.add (.add (.sub (.add (.add (.sub (.sub (.mul (.mul (.num 30 1) (.sqrt (.num 2 1))) (.sqrt (.div (.mul (.mul (.mul (.add (.num 1 1) (.var 0)) (.add (.num 1 1) (.mul (.num 2 1) (.var 0)))) (.var 1)) (.add (.num 5 1) (.mul (.num 2 1) (.var 1)))) (.mul (.add (.num 1 1) (.mul (.num 2 1) (.var 1))) (.add (.add (.num 6 1) (.mul (.num 5 1) (.var 1))) (.pow (.var 1) 2)))))) (.mul (.mul (.mul (.mul (.num 36 1) (.sqrt (.num 2 1))) (.var 0)) (.add (.num 1 1) (.var 1))) (.sqrt (.div (.mul (.mul (.mul (.add (.num 1 1) (.var 0)) (.var 1)) (.add (.num 1 1) (.mul (.num 2 1) (.var 1)))) (.add (.num 5 1) (.mul (.num 2 1) (.var 1)))) (.mul (.add (.num 1 1) (.mul (.num 2 1) (.var 0))) (.add (.add (.num 6 1) (.mul (.num 5 1) (.var 1))) (.pow (.var 1) 2))))))) (.mul (.mul (.mul (.mul (.mul (.num 8 1) (.sqrt (.num 2 1))) (.var 0)) (.add (.num 1 1) (.var 1))) (.add (.num 3 1) (.mul (.num 2 1) (.var 1)))) (.sqrt (.div (.mul (.mul (.mul (.add (.num 1 1) (.var 0)) (.var 1)) (.add (.num 1 1) (.mul (.num 2 1) (.var 1)))) (.add (.num 5 1) (.mul (.num 2 1) (.var 1)))) (.mul (.add (.num 1 1) (.mul (.num 2 1) (.var 0))) (.add (.add (.num 6 1) (.mul (.num 5 1) (.var 1))) (.pow (.var 1) 2))))))) (.mul (.mul (.mul (.num 18 1) (.sqrt (.num 2 1))) (.add (.num 1 1) (.var 1))) (.sqrt (.div (.mul (.mul (.mul (.mul (.add (.num 1 1) (.var 0)) (.add (.num 1 1) (.mul (.num 2 1) (.var 0)))) (.var 1)) (.add (.num 1 1) (.mul (.num 2 1) (.var 1)))) (.add (.num 5 1) (.mul (.num 2 1) (.var 1)))) (.add (.add (.num 6 1) (.mul (.num 5 1) (.var 1))) (.pow (.var 1) 2)))))) (.mul (.mul (.mul (.mul (.num 4 1) (.sqrt (.num 2 1))) (.add (.num 1 1) (.var 1))) (.add (.num 3 1) (.mul (.num 2 1) (.var 1)))) (.sqrt (.div (.mul (.mul (.mul (.mul (.add (.num 1 1) (.var 0)) (.add (.num 1 1) (.mul (.num 2 1) (.var 0)))) (.var 1)) (.add (.num 1 1) (.mul (.num 2 1) (.var 1)))) (.add (.num 5 1) (.mul (.num 2 1) (.var 1)))) (.add (.add (.num 6 1) (.mul (.num 5 1) (.var 1))) (.pow (.var 1) 2)))))) (.mul (.mul (.num 48 1) (.var 0)) (.sqrt (.div (.mul (.mul (.mul (.add (.num 1 1) (.var 0)) (.var 1)) (.add (.num 5 1) (.mul (.num 2 1) (.var 1)))) (.add (.num 2 1) (.mul (.num 4 1) (.var 1)))) (.mul (.add (.num 1 1) (.mul (.num 2 1) (.var 0))) (.add (.add (.num 6 1) (.mul (.num 5 1) (.var 1))) (.pow (.var 1) 2))))))) (.mul (.num 24 1) (.sqrt (.div (.mul (.mul (.mul (.mul (.add (.num 1 1) (.var 0)) (.add (.num 1 1) (.mul (.num 2 1) (.var 0)))) (.var 1)) (.add (.num 5 1) (.mul (.num 2 1) (.var 1)))) (.add (.num 2 1) (.mul (.num 4 1) (.var 1)))) (.add (.add (.num 6 1) (.mul (.num 5 1) (.var 1))) (.pow (.var 1) 2)))))) (.mul (.mul (.sqrt (.num 2 1)) (.add (.add (.num 3 1) (.mul (.num 5 1) (.var 1))) (.mul (.num 2 1) (.pow (.var 1) 2)))) (.sqrt (.div (.mul (.mul (.mul (.mul (.add (.num 1 1) (.var 0)) (.add (.num 1 1) (.mul (.num 2 1) (.var 0)))) (.var 1)) (.add (.num 1 1) (.mul (.num 2 1) (.var 1)))) (.add (.add (.num 10 1) (.mul (.num 9 1) (.var 1))) (.mul (.num 2 1) (.pow (.var 1) 2)))) (.add (.num 3 1) (.var 1)))))) (.mul (.mul (.mul (.num 60 1) (.sqrt (.num 2 1))) (.var 0)) (.sqrt (.div (.mul (.mul (.add (.num 1 1) (.var 0)) (.var 1)) (.add (.num 5 1) (.mul (.num 2 1) (.var 1)))) (.mul (.add (.num 1 1) (.mul (.num 2 1) (.var 0))) (.add (.add (.add (.num 6 1) (.mul (.num 17 1) (.var 1))) (.mul (.num 11 1) (.pow (.var 1) 2))) (.mul (.num 2 1) (.pow (.var 1) 3)))))))) (.mul (.mul (.mul (.mul (.num 2 1) (.sqrt (.num 2 1))) (.var 0)) (.add (.add (.num 3 1) (.mul (.num 5 1) (.var 1))) (.mul (.num 2 1) (.pow (.var 1) 2)))) (.sqrt (.div (.mul (.mul (.add (.num 1 1) (.var 0)) (.var 1)) (.add (.add (.add (.num 10 1) (.mul (.num 29 1) (.var 1))) (.mul (.num 20 1) (.pow (.var 1) 2))) (.mul (.num 4 1) (.pow (.var 1) 3)))) (.mul (.add (.num 1 1) (.mul (.num 2 1) (.var 0))) (.add (.num 3 1) (.var 1)))))))) (.mul (.hpow (.add (.num 5 1) (.mul (.num 2 1) (.var 1))) 1) (.add (.add (.add (.num 6 1) (.mul (.num 13 1) (.var 1))) (.mul (.num 9 1) (.pow (.var 1) 2))) (.mul (.num 2 1) (.pow (.var 1) 3)))),
  .div (.mul (.sqrt (.num 2 1)) (.sqrt (.mul (.add (.num 1 1) (.var 1)) (.add (.add (.add (.num 30 1) (.mul (.num 47 1) (.var 1))) (.mul (.num 24 1) (.pow (.var 1) 2))) (.mul (.num 4 1) (.pow (.var 1) 3)))))) (.add (.add (.add (.num 6 1) (.mul (.num 13 1) (.var 1))) (.mul (.num 9 1) (.pow (.var 1) 2))) (.mul (.num 2 1) (.pow (.var 1) 3))),
  .neg (.div (.mul (.mul (.add (.num 3 1) (.mul (.num 2 1) (.var 0))) (.sqrt (.div (.add (.add (.num 1 1) (.mul (.num 3 1) (.var 1))) (.mul (.num 2 1) (.pow (.var 1) 2))) (.add (.add (.num 3 1) (.mul (.num 5 1) (.var 0))) (.mul (.num 2 1) (.pow (.var 0) 2)))))) (.add (.add (.mul (.mul (.num 2 1) (.pow (.var 1) 2)) (.add (.mul (.num 4 1) (.sqrt (.div (.mul (.mul (.add (.num 1 1) (.var 0)) (.var 1)) (.add (.add (.num 5 1) (.mul (.num 12 1) (.var 1))) (.mul (.num 4 1) (.pow (.var 1) 2)))) (.mul (.add (.num 3 1) (.mul (.num 2 1) (.var 0))) (.add (.add (.num 6 1) (.mul (.num 5 1) (.var 1))) (.pow (.var 1) 2)))))) (.sqrt (.div (.mul (.mul (.add (.num 1 1) (.var 0)) (.var 1)) (.add (.add (.add (.num 10 1) (.mul (.num 29 1) (.var 1))) (.mul (.num 20 1) (.pow (.var 1) 2))) (.mul (.num 4 1) (.pow (.var 1) 3)))) (.mul (.add (.num 3 1) (.mul (.num 2 1) (.var 0))) (.add (.num 3 1) (.var 1))))))) (.mul (.num 3 1) (.add (.add (.mul (.num 18 1) (.sqrt (.div (.mul (.mul (.add (.num 1 1) (.var 0)) (.var 1)) (.add (.add (.num 5 1) (.mul (.num 12 1) (.var 1))) (.mul (.num 4 1) (.pow (.var 1) 2)))) (.mul (.add (.num 3 1) (.mul (.num 2 1) (.var 0))) (.add (.add (.num 6 1) (.mul (.num 5 1) (.var 1))) (.pow (.var 1) 2)))))) (.mul (.num 10 1) (.sqrt (.div (.mul (.mul (.add (.num 1 1) (.var 0)) (.var 1)) (.add (.num 5 1) (.mul (.num 2 1) (.var 1)))) (.mul (.add (.num 3 1) (.mul (.num 2 1) (.var 0))) (.add (.add (.add (.num 6 1) (.mul (.num 17 1) (.var 1))) (.mul (.num 11 1) (.pow (.var 1) 2))) (.mul (.num 2 1) (.pow (.var 1) 3)))))))) (.sqrt (.div (.mul (.mul (.add (.num 1 1) (.var 0)) (.var 1)) (.add (.add (.add (.num 10 1) (.mul (.num 29 1) (.var 1))) (.mul (.num 20 1) (.pow (.var 1) 2))) (.mul (.num 4 1) (.pow (.var 1) 3)))) (.mul (.add (.num 3 1) (.mul (.num 2 1) (.var 0))) (.add (.num 3 1) (.var 1)))))))) (.mul (.var 1) (.add (.mul (.num 38 1) (.sqrt (.div (.mul (.mul (.add (.num 1 1) (.var 0)) (.var 1)) (.add (.add (.num 5 1) (.mul (.num 12 1) (.var 1))) (.mul (.num 4 1) (.pow (.var 1) 2)))) (.mul (.add (.num 3 1) (.mul (.num 2 1) (.var 0))) (.add (.add (.num 6 1) (.mul (.num 5 1) (.var 1))) (.pow (.var 1) 2)))))) (.mul (.num 5 1) (.sqrt (.div (.mul (.mul (.add (.num 1 1) (.var 0)) (.var 1)) (.add (.add (.add (.num 10 1) (.mul (.num 29 1) (.var 1))) (.mul (.num 20 1) (.pow (.var 1) 2))) (.mul (.num 4 1) (.pow (.var 1) 3)))) (.mul (.add (.num 3 1) (.mul (.num 2 1) (.var 0))) (.add (.num 3 1) (.var 1)))))))))) (.mul (.hpow (.add (.num 5 1) (.mul (.num 2 1) (.var 1))) 1) (.add (.add (.add (.num 6 1) (.mul (.num 13 1) (.var 1))) (.mul (.num 9 1) (.pow (.var 1) 2))) (.mul (.num 2 1) (.pow (.var 1) 3))))),
  .sqrt (.div (.mul (.add (.add (.neg (.num 1 1)) (.var 0)) (.mul (.num 2 1) (.pow (.var 0) 2))) (.add (.neg (.num 1 1)) (.pow (.var 1) 2))) (.mul (.add (.var 0) (.mul (.num 2 1) (.pow (.var 0) 2))) (.pow (.var 1) 2))),
  .div (.sqrt (.div (.mul (.add (.add (.neg (.num 1 1)) (.var 0)) (.mul (.num 2 1) (.pow (.var 0) 2))) (.add (.neg (.num 1 1)) (.mul (.num 2 1) (.var 1)))) (.mul (.add (.var 0) (.mul (.num 2 1) (.pow (.var 0) 2))) (.add (.num 1 1) (.mul (.num 2 1) (.var 1)))))) (.var 1),
  .neg (.div (.sqrt (.div (.add (.add (.neg (.num 1 1)) (.var 0)) (.mul (.num 2 1) (.pow (.var 0) 2))) (.mul (.var 0) (.add (.num 1 1) (.mul (.num 2 1) (.var 0)))))) (.var 1)),
  .div (.mul (.sqrt (.div (.add (.add (.neg (.num 1 1)) (.var 0)) (.mul (.num 2 1) (.pow (.var 0) 2))) (.mul (.var 0) (.add (.num 1 1) (.mul (.num 2 1) (.var 0)))))) (.add (.add (.neg (.num 1 1)) (.var 1)) (.pow (.var 1) 2))) (.mul (.var 1) (.add (.num 1 1) (.var 1))),
  .div (.sqrt (.div (.add (.add (.neg (.num 1 1)) (.var 0)) (.mul (.num 2 1) (.pow (.var 0) 2))) (.mul (.var 0) (.add (.num 1 1) (.mul (.num 2 1) (.var 0)))))) (.add (.num 1 1) (.var 1)),
  .neg (.div (.add (.mul (.num 3 1) (.sqrt (.div (.add (.neg (.num 1 1)) (.mul (.num 2 1) (.var 0))) (.mul (.add (.num 1 1) (.mul (.num 2 1) (.var 0))) (.add (.num 1 1) (.mul (.num 2 1) (.var 1))))))) (.mul (.var 1) (.add (.mul (.num 4 1) (.sqrt (.div (.add (.neg (.num 1 1)) (.mul (.num 2 1) (.var 0))) (.mul (.add (.num 1 1) (.mul (.num 2 1) (.var 0))) (.add (.num 1 1) (.mul (.num 2 1) (.var 1))))))) (.sqrt (.div (.mul (.add (.neg (.num 1 1)) (.mul (.num 2 1) (.var 0))) (.add (.num 1 1) (.mul (.num 2 1) (.var 1)))) (.add (.num 1 1) (.mul (.num 2 1) (.var 0)))))))) (.mul (.pow (.add (.num 1 1) (.var 1)) 2) (.sqrt (.div (.mul (.var 0) (.add (.num 3 1) (.mul (.num 2 1) (.var 1)))) (.add (.num 1 1) (.var 0)))))),
  .div (.sqrt (.div (.mul (.mul (.add (.add (.neg (.num 1 1)) (.var 0)) (.mul (.num 2 1) (.pow (.var 0) 2))) (.var 1)) (.add (.num 2 1) (.var 1))) (.mul (.var 0) (.add (.num 1 1) (.mul (.num 2 1) (.var 0)))))) (.add (.num 1 1) (.var 1)),
  .neg (.div (.num 1 1) (.sqrt (.div (.mul (.mul (.var 0) (.add (.num 1 1) (.mul (.num 2 1) (.var 0)))) (.pow (.var 1) 2)) (.add (.neg (.num 1 1)) (.pow (.var 1) 2))))),
  .neg (.div (.sqrt (.div (.add (.neg (.num 1 1)) (.mul (.num 2 1) (.var 1))) (.mul (.add (.var 0) (.mul (.num 2 1) (.pow (.var 0) 2))) (.add (.num 1 1) (.mul (.num 2 1) (.var 1)))))) (.var 1)),
  .div (.mul (.add (.num 3 1) (.mul (.num 2 1) (.var 0))) (.sqrt (.div (.mul (.var 0) (.add (.neg (.num 1 1)) (.pow (.var 1) 2))) (.add (.add (.add (.num 3 1) (.mul (.num 11 1) (.var 0))) (.mul (.num 12 1) (.pow (.var 0) 2))) (.mul (.num 4 1) (.pow (.var 0) 3)))))) (.var 1),
  .mul (.add (.num 3 1) (.mul (.num 2 1) (.var 0))) (.sqrt (.div (.mul (.var 0) (.add (.neg (.num 1 1)) (.mul (.num 2 1) (.var 1)))) (.mul (.mul (.add (.add (.add (.num 3 1) (.mul (.num 11 1) (.var 0))) (.mul (.num 12 1) (.pow (.var 0) 2))) (.mul (.num 4 1) (.pow (.var 0) 3))) (.pow (.var 1) 2)) (.add (.num 1 1) (.mul (.num 2 1) (.var 1)))))),
  .div (.sub (.sub (.sqrt (.mul (.add (.num 1 1) (.var 0)) (.var 1))) (.sqrt (.mul (.add (.num 1 1) (.var 0)) (.pow (.var 1) 3)))) (.sqrt (.mul (.add (.num 1 1) (.var 0)) (.pow (.var 1) 5)))) (.mul (.mul (.var 1) (.sqrt (.mul (.mul (.mul (.var 0) (.add (.num 1 1) (.var 0))) (.add (.num 1 1) (.mul (.num 2 1) (.var 0)))) (.var 1)))) (.add (.num 1 1) (.var 1))),
  .neg (.div (.sub (.sub (.add (.mul (.num 4 1) (.sqrt (.div (.mul (.mul (.var 0) (.pow (.add (.num 1 1) (.var 0)) 3)) (.pow (.add (.var 1) (.pow (.var 1) 2)) 2)) (.add (.num 3 1) (.mul (.num 2 1) (.var 1)))))) (.mul (.mul (.num 6 1) (.hpow (.mul (.add (.num 1 1) (.var 0)) (.add (.num 1 1) (.var 1))) 1)) (.sqrt (.div (.var 0) (.add (.add (.num 3 1) (.mul (.num 5 1) (.var 1))) (.mul (.num 2 1) (.pow (.var 1) 2))))))) (.div (.mul (.mul (.num 3 1) (.add (.neg (.num 1 1)) (.mul (.num 2 1) (.var 0)))) (.hpow (.mul (.add (.num 1 1) (.var 0)) (.add (.num 1 1) (.var 1))) 1)) (.sqrt (.mul (.var 0) (.add (.add (.num 3 1) (.mul (.num 5 1) (.var 1))) (.mul (.num 2 1) (.pow (.var 1) 2))))))) (.div (.mul (.mul (.mul (.num 2 1) (.add (.neg (.num 1 1)) (.mul (.num 2 1) (.var 0)))) (.var 1)) (.hpow (.mul (.add (.num 1 1) (.var 0)) (.add (.num 1 1) (.var 1))) 1)) (.sqrt (.mul (.var 0) (.add (.add (.num 3 1) (.mul (.num 5 1) (.var 1))) (.mul (.num 2 1) (.pow (.var 1) 2))))))) (.mul (.mul (.hpow (.add (.num 1 1) (.var 0)) 1) (.pow (.add (.num 1 1) (.var 1)) 2)) (.sqrt (.mul (.add (.num 1 1) (.mul (.num 2 1) (.var 0))) (.add (.num 3 1) (.mul (.num 2 1) (.var 1))))))),
  .neg (.div (.sub (.add (.mul (.num 3 1) (.sqrt (.mul (.mul (.var 0) (.var 1)) (.add (.num 1 1) (.var 1))))) (.mul (.mul (.mul (.num 2 1) (.var 0)) (.add (.num 1 1) (.var 1))) (.sqrt (.mul (.mul (.var 0) (.var 1)) (.add (.num 1 1) (.var 1)))))) (.mul (.num 2 1) (.sqrt (.mul (.mul (.pow (.var 0) 3) (.pow (.var 1) 3)) (.add (.num 1 1) (.var 1)))))) (.mul (.var 1) (.sqrt (.mul (.mul (.mul (.add (.num 1 1) (.var 0)) (.add (.add (.num 3 1) (.mul (.num 8 1) (.var 0))) (.mul (.num 4 1) (.pow (.var 0) 2)))) (.var 1)) (.add (.num 1 1) (.var 1)))))),
  .add (.add (.add (.div (.mul (.mul (.num 4 1) (.sqrt (.div (.var 0) (.add (.add (.add (.num 3 1) (.mul (.num 11 1) (.var 0))) (.mul (.num 12 1) (.pow (.var 0) 2))) (.mul (.num 4 1) (.pow (.var 0) 3)))))) (.add (.neg (.num 1 1)) (.var 1))) (.add (.num 1 1) (.var 1))) (.div (.mul (.add (.neg (.num 1 1)) (.mul (.num 2 1) (.var 0))) (.add (.neg (.num 1 1)) (.var 1))) (.sqrt (.div (.mul (.mul (.add (.num 1 1) (.var 0)) (.add (.add (.num 3 1) (.mul (.num 8 1) (.var 0))) (.mul (.num 4 1) (.pow (.var 0) 2)))) (.pow (.add (.num 1 1) (.var 1)) 2)) (.var 0))))) (.div (.mul (.mul (.var 0) (.add (.neg (.num 1 1)) (.mul (.num 2 1) (.var 0)))) (.add (.neg (.num 1 1)) (.mul (.num 2 1) (.var 1)))) (.mul (.mul (.sqrt (.mul (.mul (.var 0) (.add (.num 1 1) (.var 0))) (.add (.add (.num 3 1) (.mul (.num 8 1) (.var 0))) (.mul (.num 4 1) (.pow (.var 0) 2))))) (.var 1)) (.add (.num 1 1) (.var 1))))) (.div (.mul (.mul (.num 4 1) (.sqrt (.var 0))) (.add (.neg (.num 1 1)) (.mul (.num 2 1) (.var 1)))) (.mul (.sqrt (.add (.add (.add (.num 3 1) (.mul (.num 11 1) (.var 0))) (.mul (.num 12 1) (.pow (.var 0) 2))) (.mul (.num 4 1) (.pow (.var 0) 3)))) (.add (.var 1) (.pow (.var 1) 2)))),
  .div (.mul (.add (.num 3 1) (.mul (.num 2 1) (.var 0))) (.sqrt (.div (.var 0) (.mul (.add (.num 1 1) (.var 0)) (.add (.add (.num 3 1) (.mul (.num 8 1) (.var 0))) (.mul (.num 4 1) (.pow (.var 0) 2))))))) (.add (.num 1 1) (.var 1)),
  .div (.add (.num 3 1) (.mul (.num 2 1) (.var 1))) (.mul (.add (.num 1 1) (.var 1)) (.sqrt (.mul (.mul (.var 0) (.add (.num 1 1) (.mul (.num 2 1) (.var 0)))) (.add (.add (.num 3 1) (.mul (.num 8 1) (.var 1))) (.mul (.num 4 1) (.pow (.var 1) 2)))))),
  .neg (.div (.sqrt (.div (.mul (.var 1) (.add (.num 2 1) (.var 1))) (.mul (.var 0) (.add (.num 1 1) (.mul (.num 2 1) (.var 0)))))) (.add (.num 1 1) (.var 1))),
  .mul (.sqrt (.mul (.add (.num 1 1) (.var 0)) (.add (.num 1 1) (.var 1)))) (.add (.add (.add (.sub (.add (.mul (.mul (.num 4 1) (.add (.neg (.num 1 1)) (.var 1))) (.sqrt (.div (.mul (.var 0) (.add (.num 1 1) (.mul (.num 2 1) (.var 1)))) (.mul (.mul (.mul (.pow (.add (.num 1 1) (.var 0)) 2) (.add (.add (.num 3 1) (.mul (.num 8 1) (.var 0))) (.mul (.num 4 1) (.pow (.var 0) 2)))) (.pow (.add (.num 1 1) (.var 1)) 3)) (.add (.num 3 1) (.mul (.num 2 1) (.var 1))))))) (.div (.mul (.add (.neg (.num 1 1)) (.mul (.num 2 1) (.var 0))) (.add (.neg (.num 1 1)) (.var 1))) (.sqrt (.div (.mul (.mul (.mul (.pow (.add (.num 1 1) (.var 0)) 2) (.add (.add (.num 3 1) (.mul (.num 8 1) (.var 0))) (.mul (.num 4 1) (.pow (.var 0) 2)))) (.pow (.add (.num 1 1) (.var 1)) 3)) (.add (.num 3 1) (.mul (.num 2 1) (.var 1)))) (.add (.var 0) (.mul (.mul (.num 2 1) (.var 0)) (.var 1))))))) (.div (.mul (.num 4 1) (.sqrt (.div (.mul (.var 0) (.add (.num 1 1) (.mul (.num 2 1) (.var 1)))) (.mul (.add (.add (.num 3 1) (.mul (.num 8 1) (.var 0))) (.mul (.num 4 1) (.pow (.var 0) 2))) (.add (.add (.num 3 1) (.mul (.num 5 1) (.var 1))) (.mul (.num 2 1) (.pow (.var 1) 2))))))) (.add (.num 1 1) (.var 0)))) (.div (.sub (.var 0) (.mul (.num 2 1) (.pow (.var 0) 2))) (.sqrt (.div (.mul (.mul (.mul (.var 0) (.pow (.add (.num 1 1) (.var 0)) 2)) (.add (.add (.num 3 1) (.mul (.num 8 1) (.var 0))) (.mul (.num 4 1) (.pow (.var 0) 2)))) (.add (.add (.num 3 1) (.mul (.num 5 1) (.var 1))) (.mul (.num 2 1) (.pow (.var 1) 2)))) (.add (.num 1 1) (.mul (.num 2 1) (.var 1))))))) (.mul (.num 4 1) (.sqrt (.div (.mul (.var 0) (.pow (.sub (.num 1 1) (.mul (.num 2 1) (.var 1))) 2)) (.mul (.mul (.mul (.pow (.add (.num 1 1) (.var 0)) 2) (.add (.add (.num 3 1) (.mul (.num 8 1) (.var 0))) (.mul (.num 4 1) (.pow (.var 0) 2)))) (.pow (.add (.num 1 1) (.var 1)) 3)) (.add (.add (.num 3 1) (.mul (.num 8 1) (.var 1))) (.mul (.num 4 1) (.pow (.var 1) 2)))))))) (.div (.add (.neg (.num 1 1)) (.mul (.num 2 1) (.var 0))) (.sqrt (.div (.mul (.mul (.mul (.pow (.add (.num 1 1) (.var 0)) 2) (.add (.add (.num 3 1) (.mul (.num 8 1) (.var 0))) (.mul (.num 4 1) (.pow (.var 0) 2)))) (.pow (.add (.num 1 1) (.var 1)) 3)) (.add (.add (.num 3 1) (.mul (.num 8 1) (.var 1))) (.mul (.num 4 1) (.pow (.var 1) 2)))) (.mul (.var 0) (.pow (.sub (.num 1 1) (.mul (.num 2 1) (.var 1))) 2)))))),
  .div (.mul (.var 0) (.add (.mul (.mul (.num 2 1) (.var 0)) (.add (.add (.add (.mul (.num 5 1) (.sqrt (.div (.var 1) (.add (.num 1 1) (.var 1))))) (.mul (.mul (.num 4 1) (.var 1)) (.sqrt (.div (.var 1) (.add (.num 1 1) (.var 1)))))) (.sqrt (.mul (.var 1) (.add (.num 1 1) (.var 1))))) (.mul (.num 2 1) (.sqrt (.mul (.pow (.var 1) 3) (.add (.num 1 1) (.var 1))))))) (.mul (.num 3 1) (.add (.add (.mul (.num 5 1) (.sqrt (.div (.var 1) (.add (.num 1 1) (.var 1))))) (.sqrt (.mul (.var 1) (.add (.num 1 1) (.var 1))))) (.mul (.mul (.num 2 1) (.var 1)) (.add (.mul (.num 2 1) (.sqrt (.div (.var 1) (.add (.num 1 1) (.var 1))))) (.sqrt (.mul (.var 1) (.add (.num 1 1) (.var 1)))))))))) (.mul (.sqrt (.div (.mul (.mul (.mul (.var 0) (.add (.num 1 1) (.var 0))) (.add (.add (.num 3 1) (.mul (.num 8 1) (.var 0))) (.mul (.num 4 1) (.pow (.var 0) 2)))) (.add (.num 2 1) (.var 1))) (.add (.num 1 1) (.var 1)))) (.add (.add (.num 3 1) (.mul (.num 5 1) (.var 1))) (.mul (.num 2 1) (.pow (.var 1) 2)))),
  .neg (.div (.add (.add (.mul (.mul (.neg (.num 2 1)) (.var 0)) (.add (.sqrt (.div (.mul (.add (.num 1 1) (.mul (.num 2 1) (.var 0))) (.add (.neg (.num 1 1)) (.var 1))) (.mul (.add (.add (.num 3 1) (.mul (.num 5 1) (.var 0))) (.mul (.num 2 1) (.pow (.var 0) 2))) (.var 1)))) (.mul (.num 2 1) (.sqrt (.div (.add (.neg (.num 1 1)) (.var 1)) (.mul (.add (.add (.add (.num 3 1) (.mul (.num 11 1) (.var 0))) (.mul (.num 12 1) (.pow (.var 0) 2))) (.mul (.num 4 1) (.pow (.var 0) 3))) (.var 1))))))) (.mul (.num 2 1) (.sqrt (.div (.mul (.add (.add (.num 1 1) (.mul (.num 3 1) (.var 0))) (.mul (.num 2 1) (.pow (.var 0) 2))) (.add (.neg (.num 1 1)) (.var 1))) (.mul (.add (.num 3 1) (.mul (.num 2 1) (.var 0))) (.var 1)))))) (.sqrt (.div (.mul (.add (.num 1 1) (.mul (.num 2 1) (.var 0))) (.add (.neg (.num 1 1)) (.var 1))) (.mul (.add (.add (.num 3 1) (.mul (.num 5 1) (.var 0))) (.mul (.num 2 1) (.pow (.var 0) 2))) (.var 1))))) (.sqrt (.div (.mul (.add (.num 3 1) (.mul (.num 2 1) (.var 0))) (.var 1)) (.add (.num 1 1) (.var 1))))),
  .neg (.div (.add (.add (.neg (.num 1 1)) (.var 1)) (.pow (.var 1) 2)) (.mul (.mul (.sqrt (.mul (.add (.num 1 1) (.var 0)) (.add (.num 1 1) (.mul (.num 2 1) (.var 0))))) (.var 1)) (.add (.num 1 1) (.var 1)))),
  .neg (.div (.num 1 1) (.mul (.sqrt (.mul (.add (.num 1 1) (.var 0)) (.add (.num 1 1) (.mul (.num 2 1) (.var 0))))) (.add (.num 1 1) (.var 1)))),
  .div (.add (.add (.neg (.num 1 1)) (.var 1)) (.pow (.var 1) 2)) (.mul (.var 1) (.add (.num 1 1) (.var 1))),
  .div (.num 1 1) (.add (.num 1 1) (.var 1)),
  .mul (.sqrt (.mul (.add (.num 1 1) (.var 0)) (.add (.num 1 1) (.var 1)))) (.add (.add (.sub (.add (.add (.sub (.add (.add (.mul (.mul (.neg (.num 2 1)) (.add (.neg (.num 1 1)) (.var 1))) (.sqrt (.div (.mul (.add (.num 1 1) (.mul (.num 2 1) (.var 0))) (.add (.num 1 1) (.mul (.num 2 1) (.var 1)))) (.mul (.mul (.pow (.add (.num 3 1) (.mul (.num 2 1) (.var 0))) 2) (.pow (.add (.num 1 1) (.var 1)) 3)) (.add (.num 3 1) (.mul (.num 2 1) (.var 1))))))) (.mul (.mul (.num 4 1) (.add (.neg (.num 1 1)) (.var 1))) (.sqrt (.div (.mul (.pow (.var 0) 2) (.add (.num 1 1) (.mul (.num 2 1) (.var 1)))) (.mul (.mul (.mul (.add (.num 1 1) (.mul (.num 2 1) (.var 0))) (.pow (.add (.add (.num 3 1) (.mul (.num 5 1) (.var 0))) (.mul (.num 2 1) (.pow (.var 0) 2))) 2)) (.pow (.add (.num 1 1) (.var 1)) 3)) (.add (.num 3 1) (.mul (.num 2 1) (.var 1)))))))) (.mul (.mul (.add (.neg (.num 1 1)) (.mul (.num 2 1) (.var 0))) (.add (.neg (.num 1 1)) (.var 1))) (.sqrt (.div (.mul (.add (.num 1 1) (.mul (.num 2 1) (.var 0))) (.add (.num 1 1) (.mul (.num 2 1) (.var 1)))) (.mul (.mul (.pow (.add (.add (.num 3 1) (.mul (.num 5 1) (.var 0))) (.mul (.num 2 1) (.pow (.var 0) 2))) 2) (.pow (.add (.num 1 1) (.var 1)) 3)) (.add (.num 3 1) (.mul (.num 2 1) (.var 1)))))))) (.div (.mul (.mul (.num 4 1) (.var 0)) (.sqrt (.div (.add (.num 1 1) (.mul (.num 2 1) (.var 1))) (.mul (.add (.num 1 1) (.mul (.num 2 1) (.var 0))) (.add (.add (.num 3 1) (.mul (.num 5 1) (.var 1))) (.mul (.num 2 1) (.pow (.var 1) 2))))))) (.add (.add (.num 3 1) (.mul (.num 5 1) (.var 0))) (.mul (.num 2 1) (.pow (.var 0) 2))))) (.div (.mul (.num 2 1) (.sqrt (.div (.mul (.add (.num 1 1) (.mul (.num 2 1) (.var 0))) (.add (.num 1 1) (.mul (.num 2 1) (.var 1)))) (.add (.add (.num 3 1) (.mul (.num 5 1) (.var 1))) (.mul (.num 2 1) (.pow (.var 1) 2)))))) (.add (.num 3 1) (.mul (.num 2 1) (.var 0))))) (.div (.sub (.num 1 1) (.mul (.num 4 1) (.pow (.var 0) 2))) (.mul (.add (.num 1 1) (.var 0)) (.sqrt (.div (.mul (.mul (.add (.num 1 1) (.mul (.num 2 1) (.var 0))) (.pow (.add (.num 3 1) (.mul (.num 2 1) (.var 0))) 2)) (.add (.add (.num 3 1) (.mul (.num 5 1) (.var 1))) (.mul (.num 2 1) (.pow (.var 1) 2)))) (.add (.num 1 1) (.mul (.num 2 1) (.var 1)))))))) (.mul (.num 2 1) (.sqrt (.div (.mul (.add (.num 1 1) (.mul (.num 2 1) (.var 0))) (.pow (.sub (.num 1 1) (.mul (.num 2 1) (.var 1))) 2)) (.mul (.mul (.pow (.add (.num 3 1) (.mul (.num 2 1) (.var 0))) 2) (.pow (.add (.num 1 1) (.var 1)) 3)) (.add (.add (.num 3 1) (.mul (.num 8 1) (.var 1))) (.mul (.num 4 1) (.pow (.var 1) 2)))))))) (.div (.add (.neg (.num 1 1)) (.mul (.num 2 1) (.var 0))) (.sqrt (.div (.mul (.mul (.pow (.add (.add (.num 3 1) (.mul (.num 5 1) (.var 0))) (.mul (.num 2 1) (.pow (.var 0) 2))) 2) (.pow (.add (.num 1 1) (.var 1)) 3)) (.add (.add (.num 3 1) (.mul (.num 8 1) (.var 1))) (.mul (.num 4 1) (.pow (.var 1) 2)))) (.mul (.add (.num 1 1) (.mul (.num 2 1) (.var 0))) (.pow (.sub (.num 1 1) (.mul (.num 2 1) (.var 1))) 2)))))) (.div (.mul (.mul (.num 4 1) (.var 0)) (.add (.neg (.num 1 1)) (.mul (.num 2 1) (.var 1)))) (.mul (.mul (.add (.add (.num 3 1) (.mul (.num 5 1) (.var 0))) (.mul (.num 2 1) (.pow (.var 0) 2))) (.add (.num 1 1) (.var 1))) (.sqrt (.mul (.add (.num 1 1) (.mul (.num 2 1) (.var 0))) (.add (.add (.add (.num 3 1) (.mul (.num 11 1) (.var 1))) (.mul (.num 12 1) (.pow (.var 1) 2))) (.mul (.num 4 1) (.pow (.var 1) 3)))))))),
  .neg (.div (.mul (.add (.num 2 1) (.var 1)) (.add (.add (.sub (.sqrt (.div (.mul (.mul (.add (.num 3 1) (.mul (.num 2 1) (.var 0))) (.var 1)) (.add (.num 3 1) (.mul (.num 2 1) (.var 1)))) (.mul (.add (.num 1 1) (.var 0)) (.add (.num 2 1) (.var 1))))) (.mul (.mul (.num 4 1) (.pow (.var 0) 2)) (.sqrt (.div (.mul (.mul (.add (.num 3 1) (.mul (.num 2 1) (.var 0))) (.var 1)) (.add (.num 3 1) (.mul (.num 2 1) (.var 1)))) (.mul (.add (.num 1 1) (.var 0)) (.add (.num 2 1) (.var 1))))))) (.mul (.num 2 1) (.sqrt (.div (.mul (.mul (.add (.add (.num 3 1) (.mul (.num 5 1) (.var 0))) (.mul (.num 2 1) (.pow (.var 0) 2))) (.var 1)) (.add (.num 3 1) (.mul (.num 2 1) (.var 1)))) (.add (.num 2 1) (.var 1)))))) (.mul (.mul (.num 4 1) (.var 0)) (.add (.neg (.sqrt (.div (.mul (.mul (.add (.num 3 1) (.mul (.num 2 1) (.var 0))) (.var 1)) (.add (.num 3 1) (.mul (.num 2 1) (.var 1)))) (.mul (.add (.num 1 1) (.var 0)) (.add (.num 2 1) (.var 1)))))) (.sqrt (.div (.mul (.mul (.add (.add (.num 3 1) (.mul (.num 5 1) (.var 0))) (.mul (.num 2 1) (.pow (.var 0) 2))) (.var 1)) (.add (.num 3 1) (.mul (.num 2 1) (.var 1)))) (.add (.num 2 1) (.var 1)))))))) (.mul (.mul (.add (.num 3 1) (.mul (.num 2 1) (.var 0))) (.add (.num 1 1) (.var 1))) (.sqrt (.mul (.add (.add (.num 3 1) (.mul (.num 8 1) (.var 0))) (.mul (.num 4 1) (.pow (.var 0) 2))) (.add (.num 3 1) (.mul (.num 2 1) (.var 1))))))),
  .div (.sub (.neg (.num 3 1)) (.mul (.num 2 1) (.var 1))) (.mul (.add (.num 1 1) (.var 1)) (.sqrt (.add (.add (.num 3 1) (.mul (.num 8 1) (.var 1))) (.mul (.num 4 1) (.pow (.var 1) 2))))),
  .div (.sqrt (.mul (.var 1) (.add (.num 2 1) (.var 1)))) (.add (.num 1 1) (.var 1)),
  .neg (.div (.add (.add (.neg (.num 1 1)) (.var 1)) (.pow (.var 1) 2)) (.mul (.mul (.add (.num 1 1) (.mul (.num 2 1) (.var 0))) (.var 1)) (.add (.num 1 1) (.var 1)))),
  .neg (.div (.num 1 1) (.add (.add (.add (.num 1 1) (.mul (.num 2 1) (.var 0))) (.var 1)) (.mul (.mul (.num 2 1) (.var 0)) (.var 1)))),
  .neg (.div (.mul (.sqrt (.div (.add (.neg (.num 1 1)) (.mul (.num 2 1) (.var 1))) (.add (.num 3 1) (.mul (.num 2 1) (.var 1))))) (.sub (.add (.sqrt (.div (.add (.neg (.num 1 1)) (.mul (.num 2 1) (.var 1))) (.add (.add (.num 1 1) (.mul (.num 3 1) (.var 1))) (.mul (.num 2 1) (.pow (.var 1) 2))))) (.mul (.var 1) (.sqrt (.div (.add (.neg (.num 1 1)) (.mul (.num 2 1) (.var 1))) (.add (.add (.num 1 1) (.mul (.num 3 1) (.var 1))) (.mul (.num 2 1) (.pow (.var 1) 2))))))) (.mul (.num 2 1) (.sqrt (.div (.add (.add (.num 1 1) (.mul (.num 3 1) (.var 1))) (.mul (.num 2 1) (.pow (.var 1) 2))) (.add (.neg (.num 1 1)) (.mul (.num 2 1) (.var 1)))))))) (.hpow (.add (.num 1 1) (.var 1)) 1)),
  .neg (.mul (.sqrt (.add (.num 1 1) (.var 1))) (.add (.add (.mul (.num 2 1) (.sqrt (.div (.mul (.var 1) (.pow (.add (.num 1 1) (.mul (.num 2 1) (.var 1))) 2)) (.mul (.mul (.pow (.add (.num 1 1) (.var 1)) 3) (.add (.num 2 1) (.var 1))) (.pow (.add (.num 3 1) (.mul (.num 2 1) (.var 1))) 2))))) (.div (.mul (.add (.num 1 1) (.mul (.num 2 1) (.var 1))) (.sqrt (.div (.var 1) (.add (.add (.num 2 1) (.mul (.num 3 1) (.var 1))) (.pow (.var 1) 2))))) (.add (.num 3 1) (.mul (.num 2 1) (.var 1))))) (.div (.mul (.num 3 1) (.sqrt (.div (.var 1) (.add (.add (.num 2 1) (.mul (.num 3 1) (.var 1))) (.pow (.var 1) 2))))) (.add (.add (.num 3 1) (.mul (.num 5 1) (.var 1))) (.mul (.num 2 1) (.pow (.var 1) 2)))))),
  .neg (.div (.add (.mul (.neg (.num 2 1)) (.sqrt (.mul (.mul (.add (.num 1 1) (.mul (.num 2 1) (.var 0))) (.var 1)) (.add (.num 1 1) (.mul (.num 2 1) (.var 1)))))) (.mul (.add (.neg (.num 1 1)) (.mul (.num 2 1) (.var 1))) (.sqrt (.div (.add (.var 1) (.mul (.mul (.num 2 1) (.var 0)) (.var 1))) (.add (.num 1 1) (.mul (.num 2 1) (.var 1))))))) (.mul (.mul (.hpow (.add (.num 1 1) (.mul (.num 2 1) (.var 0))) 1) (.add (.num 1 1) (.var 1))) (.sqrt (.mul (.var 1) (.add (.num 3 1) (.mul (.num 2 1) (.var 1))))))),
  .neg (.div (.mul (.sqrt (.add (.num 1 1) (.var 1))) (.add (.add (.sqrt (.div (.mul (.var 1) (.add (.num 1 1) (.var 1))) (.add (.num 2 1) (.var 1)))) (.mul (.num 5 1) (.sqrt (.div (.var 1) (.add (.add (.num 2 1) (.mul (.num 3 1) (.var 1))) (.pow (.var 1) 2)))))) (.mul (.mul (.num 2 1) (.var 1)) (.add (.sqrt (.div (.mul (.var 1) (.add (.num 1 1) (.var 1))) (.add (.num 2 1) (.var 1)))) (.mul (.num 2 1) (.sqrt (.div (.var 1) (.add (.add (.num 2 1) (.mul (.num 3 1) (.var 1))) (.pow (.var 1) 2))))))))) (.mul (.add (.num 1 1) (.mul (.num 2 1) (.var 0))) (.add (.add (.num 3 1) (.mul (.num 5 1) (.var 1))) (.mul (.num 2 1) (.pow (.var 1) 2))))),
  .div (.mul (.num 2 1) (.sqrt (.mul (.mul (.mul (.var 0) (.add (.num 1 1) (.var 0))) (.add (.num 1 1) (.mul (.num 2 1) (.var 0)))) (.var 1)))) (.hpow (.add (.var 1) (.mul (.mul (.num 2 1) (.var 0)) (.var 1))) 1),
  .div (.mul (.neg (.num 2 1)) (.add (.add (.sqrt (.mul (.var 0) (.add (.num 1 1) (.var 0)))) (.mul (.num 2 1) (.sqrt (.mul (.pow (.var 0) 3) (.add (.num 1 1) (.var 0)))))) (.sqrt (.mul (.pow (.var 0) 5) (.add (.num 1 1) (.var 0)))))) (.mul (.mul (.pow (.add (.num 1 1) (.var 0)) 2) (.add (.num 1 1) (.mul (.num 2 1) (.var 0)))) (.add (.num 1 1) (.var 1))),
  .neg (.div (.mul (.add (.num 1 1) (.mul (.num 2 1) (.var 1))) (.add (.add (.add (.sub (.sub (.sub (.neg (.sqrt (.div (.mul (.mul (.mul (.mul (.var 0) (.pow (.add (.num 1 1) (.var 0)) 3)) (.var 1)) (.pow (.add (.num 1 1) (.var 1)) 2)) (.pow (.add (.num 3 1) (.mul (.num 2 1) (.var 1))) 3)) (.mul (.add (.num 1 1) (.mul (.num 2 1) (.var 0))) (.add (.num 1 1) (.mul (.num 2 1) (.var 1))))))) (.sqrt (.div (.mul (.mul (.mul (.mul (.mul (.var 0) (.pow (.add (.num 1 1) (.var 0)) 3)) (.add (.num 1 1) (.mul (.num 2 1) (.var 0)))) (.var 1)) (.pow (.add (.num 1 1) (.var 1)) 2)) (.pow (.add (.num 3 1) (.mul (.num 2 1) (.var 1))) 3)) (.add (.num 1 1) (.mul (.num 2 1) (.var 1)))))) (.sqrt (.div (.mul (.mul (.mul (.mul (.var 0) (.pow (.add (.num 1 1) (.var 0)) 3)) (.var 1)) (.pow (.add (.num 1 1) (.var 1)) 4)) (.pow (.add (.num 3 1) (.mul (.num 2 1) (.var 1))) 3)) (.mul (.add (.num 1 1) (.mul (.num 2 1) (.var 0))) (.add (.num 1 1) (.mul (.num 2 1) (.var 1))))))) (.sqrt (.div (.mul (.mul (.mul (.mul (.mul (.var 0) (.pow (.add (.num 1 1) (.var 0)) 3)) (.add (.num 1 1) (.mul (.num 2 1) (.var 0)))) (.var 1)) (.pow (.add (.num 1 1) (.var 1)) 4)) (.pow (.add (.num 3 1) (.mul (.num 2 1) (.var 1))) 3)) (.add (.num 1 1) (.mul (.num 2 1) (.var 1)))))) (.mul (.mul (.mul (.mul (.mul (.num 2 1) (.hpow (.add (.num 1 1) (.var 0)) 2)) (.var 1)) (.add (.num 1 1) (.var 1))) (.hpow (.add (.num 3 1) (.mul (.num 2 1) (.var 1))) 1)) (.sqrt (.div (.mul (.var 0) (.var 1)) (.add (.add (.add (.num 1 1) (.mul (.num 2 1) (.var 0))) (.mul (.num 2 1) (.var 1))) (.mul (.mul (.num 4 1) (.var 0)) (.var 1))))))) (.sqrt (.div (.mul (.mul (.mul (.mul (.var 0) (.pow (.add (.num 1 1) (.var 0)) 3)) (.var 1)) (.pow (.add (.num 3 1) (.mul (.num 2 1) (.var 1))) 3)) (.pow (.add (.add (.neg (.num 1 1)) (.var 1)) (.mul (.num 2 1) (.pow (.var 1) 2))) 2)) (.mul (.add (.num 1 1) (.mul (.num 2 1) (.var 0))) (.pow (.add (.num 1 1) (.mul (.num 2 1) (.var 1))) 3))))) (.sqrt (.div (.mul (.mul (.mul (.mul (.mul (.var 0) (.pow (.add (.num 1 1) (.var 0)) 3)) (.add (.num 1 1) (.mul (.num 2 1) (.var 0)))) (.var 1)) (.pow (.add (.num 3 1) (.mul (.num 2 1) (.var 1))) 3)) (.pow (.add (.add (.neg (.num 1 1)) (.var 1)) (.mul (.num 2 1) (.pow (.var 1) 2))) 2)) (.pow (.add (.num 1 1) (.mul (.num 2 1) (.var 1))) 3))))) (.mul (.mul (.pow (.add (.num 1 1) (.var 0)) 2) (.sqrt (.add (.var 1) (.mul (.mul (.num 2 1) (.var 0)) (.var 1))))) (.pow (.add (.add (.num 3 1) (.mul (.num 5 1) (.var 1))) (.mul (.num 2 1) (.pow (.var 1) 2))) 2))),
  .div (.mul (.add (.num 1 1) (.mul (.num 2 1) (.var 1))) (.sub (.sub (.sub (.sub (.sub (.mul (.neg (.num 4 1)) (.sqrt (.div (.mul (.mul (.mul (.mul (.var 0) (.pow (.add (.num 1 1) (.var 0)) 3)) (.var 1)) (.add (.num 1 1) (.var 1))) (.pow (.add (.num 3 1) (.mul (.num 2 1) (.var 1))) 3)) (.add (.num 2 1) (.var 1))))) (.mul (.num 4 1) (.sqrt (.div (.mul (.mul (.mul (.mul (.var 0) (.pow (.add (.num 1 1) (.var 0)) 3)) (.var 1)) (.add (.num 1 1) (.var 1))) (.pow (.add (.num 3 1) (.mul (.num 2 1) (.var 1))) 3)) (.mul (.pow (.add (.num 1 1) (.mul (.num 2 1) (.var 0))) 2) (.add (.num 2 1) (.var 1))))))) (.mul (.num 6 1) (.sqrt (.div (.mul (.mul (.mul (.mul (.var 0) (.pow (.add (.num 1 1) (.var 0)) 3)) (.var 1)) (.add (.num 1 1) (.var 1))) (.pow (.add (.num 3 1) (.mul (.num 2 1) (.var 1))) 3)) (.mul (.add (.num 2 1) (.var 1)) (.pow (.add (.num 1 1) (.mul (.num 2 1) (.var 1))) 2)))))) (.div (.mul (.mul (.mul (.mul (.num 6 1) (.add (.num 1 1) (.var 0))) (.add (.num 1 1) (.var 1))) (.hpow (.add (.num 3 1) (.mul (.num 2 1) (.var 1))) 1)) (.sqrt (.div (.mul (.mul (.var 0) (.add (.num 1 1) (.var 0))) (.var 1)) (.add (.add (.num 2 1) (.mul (.num 3 1) (.var 1))) (.pow (.var 1) 2))))) (.mul (.add (.num 1 1) (.mul (.num 2 1) (.var 0))) (.add (.num 1 1) (.mul (.num 2 1) (.var 1)))))) (.mul (.num 2 1) (.sqrt (.div (.mul (.mul (.mul (.var 0) (.pow (.add (.num 1 1) (.var 0)) 3)) (.var 1)) (.pow (.add (.add (.num 3 1) (.mul (.num 5 1) (.var 1))) (.mul (.num 2 1) (.pow (.var 1) 2))) 3)) (.add (.num 2 1) (.var 1)))))) (.mul (.num 2 1) (.sqrt (.div (.mul (.mul (.mul (.var 0) (.pow (.add (.num 1 1) (.var 0)) 3)) (.var 1)) (.pow (.add (.add (.num 3 1) (.mul (.num 5 1) (.var 1))) (.mul (.num 2 1) (.pow (.var 1) 2))) 3)) (.mul (.pow (.add (.num 1 1) (.mul (.num 2 1) (.var 0))) 2) (.add (.num 2 1) (.var 1)))))))) (.mul (.mul (.mul (.num 2 1) (.pow (.add (.num 1 1) (.var 0)) 2)) (.hpow (.add (.num 1 1) (.var 1)) 1)) (.hpow (.add (.num 3 1) (.mul (.num 2 1) (.var 1))) 2)),
  .mul (.sqrt (.add (.num 1 1) (.var 1))) (.sub (.sub (.mul (.neg (.num 2 1)) (.sqrt (.div (.mul (.var 1) (.pow (.add (.num 1 1) (.mul (.num 2 1) (.var 1))) 2)) (.mul (.mul (.pow (.add (.num 1 1) (.var 1)) 3) (.add (.num 2 1) (.var 1))) (.pow (.add (.num 3 1) (.mul (.num 2 1) (.var 1))) 2))))) (.div (.mul (.add (.num 1 1) (.mul (.num 2 1) (.var 1))) (.sqrt (.div (.var 1) (.add (.add (.num 2 1) (.mul (.num 3 1) (.var 1))) (.pow (.var 1) 2))))) (.add (.num 3 1) (.mul (.num 2 1) (.var 1))))) (.div (.mul (.num 3 1) (.sqrt (.div (.var 1) (.add (.add (.num 2 1) (.mul (.num 3 1) (.var 1))) (.pow (.var 1) 2))))) (.add (.add (.num 3 1) (.mul (.num 5 1) (.var 1))) (.mul (.num 2 1) (.pow (.var 1) 2))))),
  .div (.mul (.add (.num 1 1) (.mul (.num 2 1) (.var 1))) (.sub (.sub (.sub (.sub (.sub (.mul (.neg (.num 2 1)) (.sqrt (.div (.mul (.mul (.mul (.mul (.var 0) (.pow (.add (.num 1 1) (.var 0)) 3)) (.var 1)) (.add (.num 1 1) (.var 1))) (.pow (.add (.num 3 1) (.mul (.num 2 1) (.var 1))) 3)) (.add (.num 2 1) (.var 1))))) (.mul (.num 2 1) (.sqrt (.div (.mul (.mul (.mul (.mul (.var 0) (.pow (.add (.num 1 1) (.var 0)) 3)) (.var 1)) (.add (.num 1 1) (.var 1))) (.pow (.add (.num 3 1) (.mul (.num 2 1) (.var 1))) 3)) (.mul (.pow (.add (.num 1 1) (.mul (.num 2 1) (.var 0))) 2) (.add (.num 2 1) (.var 1))))))) (.mul (.num 3 1) (.sqrt (.div (.mul (.mul (.mul (.mul (.var 0) (.pow (.add (.num 1 1) (.var 0)) 3)) (.var 1)) (.add (.num 1 1) (.var 1))) (.pow (.add (.num 3 1) (.mul (.num 2 1) (.var 1))) 3)) (.mul (.add (.num 2 1) (.var 1)) (.pow (.add (.num 1 1) (.mul (.num 2 1) (.var 1))) 2)))))) (.div (.mul (.mul (.mul (.mul (.num 3 1) (.add (.num 1 1) (.var 0))) (.add (.num 1 1) (.var 1))) (.add (.num 3 1) (.mul (.num 2 1) (.var 1)))) (.sqrt (.div (.mul (.mul (.mul (.var 0) (.add (.num 1 1) (.var 0))) (.var 1)) (.add (.num 3 1) (.mul (.num 2 1) (.var 1)))) (.mul (.pow (.add (.num 1 1) (.mul (.num 2 1) (.var 0))) 2) (.add (.add (.num 2 1) (.mul (.num 3 1) (.var 1))) (.pow (.var 1) 2)))))) (.add (.num 1 1) (.mul (.num 2 1) (.var 1))))) (.sqrt (.div (.mul (.mul (.mul (.var 0) (.pow (.add (.num 1 1) (.var 0)) 3)) (.var 1)) (.pow (.add (.add (.num 3 1) (.mul (.num 5 1) (.var 1))) (.mul (.num 2 1) (.pow (.var 1) 2))) 3)) (.add (.num 2 1) (.var 1))))) (.sqrt (.div (.mul (.mul (.mul (.var 0) (.pow (.add (.num 1 1) (.var 0)) 3)) (.var 1)) (.pow (.add (.add (.num 3 1) (.mul (.num 5 1) (.var 1))) (.mul (.num 2 1) (.pow (.var 1) 2))) 3)) (.mul (.pow (.add (.num 1 1) (.mul (.num 2 1) (.var 0))) 2) (.add (.num 2 1) (.var 1))))))) (.mul (.mul (.pow (.add (.num 1 1) (.var 0)) 2) (.hpow (.add (.num 1 1) (.var 1)) 1)) (.hpow (.add (.num 3 1) (.mul (.num 2 1) (.var 1))) 2)),
  .neg (.div (.num 1 1) (.sqrt (.div (.mul (.mul (.pow (.add (.num 1 1) (.mul (.num 2 1) (.var 0))) 2) (.add (.neg (.num 1 1)) (.var 1))) (.var 1)) (.add (.sub (.neg (.num 2 1)) (.var 1)) (.pow (.var 1) 2))))),
  .neg (.sqrt (.div (.add (.neg (.num 6 1)) (.mul (.num 4 1) (.var 1))) (.mul (.mul (.pow (.add (.num 1 1) (.mul (.num 2 1) (.var 0))) 2) (.var 1)) (.add (.sub (.num 1 1) (.mul (.num 3 1) (.var 1))) (.mul (.num 2 1) (.pow (.var 1) 2)))))),
  .neg (.div (.add (.neg (.num 3 1)) (.pow (.var 1) 2)) (.mul (.add (.var 1) (.mul (.mul (.num 2 1) (.var 0)) (.var 1))) (.sqrt (.add (.neg (.num 1 1)) (.pow (.var 1) 2))))),
  .neg (.div (.mul (.sqrt (.num 3 1)) (.sqrt (.div (.add (.add (.neg (.num 3 1)) (.var 1)) (.mul (.num 2 1) (.pow (.var 1) 2))) (.add (.add (.num 1 1) (.mul (.num 3 1) (.var 1))) (.mul (.num 2 1) (.pow (.var 1) 2)))))) (.add (.var 1) (.mul (.mul (.num 2 1) (.var 0)) (.var 1)))),
  .neg (.div (.mul (.sqrt (.num 3 1)) (.add (.sub (.add (.sub (.add (.sub (.mul (.mul (.mul (.mul (.mul (.num 2 1) (.add (.neg (.num 1 1)) (.var 1))) (.hpow (.var 1) 2)) (.hpow (.add (.num 1 1) (.var 1)) 1)) (.sqrt (.add (.neg (.num 1 1)) (.mul (.num 2 1) (.var 1))))) (.add (.num 3 1) (.mul (.num 2 1) (.var 1)))) (.mul (.mul (.mul (.mul (.num 7 1) (.add (.neg (.num 1 1)) (.var 1))) (.hpow (.mul (.var 1) (.add (.num 1 1) (.var 1))) 1)) (.sqrt (.add (.neg (.num 1 1)) (.mul (.num 2 1) (.var 1))))) (.add (.num 3 1) (.mul (.num 2 1) (.var 1))))) (.mul (.mul (.mul (.mul (.num 3 1) (.add (.neg (.num 1 1)) (.var 1))) (.hpow (.add (.num 1 1) (.var 1)) 1)) (.sqrt (.mul (.var 1) (.add (.neg (.num 1 1)) (.mul (.num 2 1) (.var 1)))))) (.add (.num 3 1) (.mul (.num 2 1) (.var 1))))) (.mul (.var 1) (.sqrt (.mul (.mul (.mul (.var 1) (.pow (.add (.num 1 1) (.var 1)) 3)) (.add (.neg (.num 1 1)) (.mul (.num 2 1) (.var 1)))) (.pow (.add (.num 3 1) (.mul (.num 2 1) (.var 1))) 2))))) (.mul (.mul (.num 3 1) (.pow (.var 1) 2)) (.sqrt (.mul (.mul (.mul (.var 1) (.pow (.add (.num 1 1) (.var 1)) 3)) (.add (.neg (.num 1 1)) (.mul (.num 2 1) (.var 1)))) (.pow (.add (.num 3 1) (.mul (.num 2 1) (.var 1))) 2))))) (.mul (.mul (.num 2 1) (.pow (.var 1) 3)) (.sqrt (.mul (.mul (.mul (.var 1) (.pow (.add (.num 1 1) (.var 1)) 3)) (.add (.neg (.num 1 1)) (.mul (.num 2 1) (.var 1)))) (.pow (.add (.num 3 1) (.mul (.num 2 1) (.var 1))) 2))))) (.mul (.mul (.mul (.num 2 1) (.sqrt (.div (.mul (.var 1) (.add (.num 1 1) (.var 1))) (.add (.neg (.num 1 1)) (.mul (.num 2 1) (.var 1)))))) (.add (.sub (.num 3 1) (.mul (.num 5 1) (.var 1))) (.mul (.num 2 1) (.pow (.var 1) 2)))) (.add (.add (.add (.neg (.num 3 1)) (.var 1)) (.mul (.num 8 1) (.pow (.var 1) 2))) (.mul (.num 4 1) (.pow (.var 1) 3)))))) (.mul (.mul (.mul (.sqrt (.add (.neg (.num 1 1)) (.var 1))) (.pow (.add (.num 1 1) (.var 1)) 2)) (.add (.neg (.num 1 1)) (.mul (.num 2 1) (.var 1)))) (.hpow (.mul (.var 1) (.add (.num 3 1) (.mul (.num 2 1) (.var 1)))) 1))),
  .neg (.div (.mul (.mul (.sqrt (.num 3 1)) (.sqrt (.add (.num 1 1) (.var 1)))) (.add (.add (.add (.sub (.mul (.mul (.num 6 1) (.sqrt (.mul (.var 1) (.add (.add (.neg (.num 2 1)) (.mul (.num 3 1) (.var 1))) (.mul (.num 2 1) (.pow (.var 1) 2)))))) (.add (.add (.num 3 1) (.mul (.num 5 1) (.var 1))) (.mul (.num 2 1) (.pow (.var 1) 2)))) (.mul (.mul (.mul (.num 19 1) (.var 1)) (.sqrt (.mul (.var 1) (.add (.add (.neg (.num 2 1)) (.mul (.num 3 1) (.var 1))) (.mul (.num 2 1) (.pow (.var 1) 2)))))) (.add (.add (.num 3 1) (.mul (.num 5 1) (.var 1))) (.mul (.num 2 1) (.pow (.var 1) 2))))) (.mul (.mul (.mul (.num 12 1) (.pow (.var 1) 2)) (.sqrt (.mul (.var 1) (.add (.add (.neg (.num 2 1)) (.mul (.num 3 1) (.var 1))) (.mul (.num 2 1) (.pow (.var 1) 2)))))) (.add (.add (.num 3 1) (.mul (.num 5 1) (.var 1))) (.mul (.num 2 1) (.pow (.var 1) 2))))) (.mul (.mul (.mul (.num 4 1) (.pow (.var 1) 3)) (.sqrt (.mul (.var 1) (.add (.add (.neg (.num 2 1)) (.mul (.num 3 1) (.var 1))) (.mul (.num 2 1) (.pow (.var 1) 2)))))) (.add (.add (.num 3 1) (.mul (.num 5 1) (.var 1))) (.mul (.num 2 1) (.pow (.var 1) 2))))) (.mul (.num 12 1) (.sqrt (.mul (.mul (.mul (.var 1) (.add (.num 2 1) (.var 1))) (.pow (.add (.neg (.num 1 1)) (.mul (.num 2 1) (.var 1))) 3)) (.pow (.add (.add (.num 3 1) (.mul (.num 5 1) (.var 1))) (.mul (.num 2 1) (.pow (.var 1) 2))) 2)))))) (.mul (.mul (.var 1) (.add (.add (.neg (.num 2 1)) (.mul (.num 3 1) (.var 1))) (.mul (.num 2 1) (.pow (.var 1) 2)))) (.hpow (.add (.add (.num 3 1) (.mul (.num 5 1) (.var 1))) (.mul (.num 2 1) (.pow (.var 1) 2))) 2))),
  .div (.mul (.mul (.sqrt (.num 3 1)) (.add (.neg (.num 1 1)) (.var 1))) (.sub (.add (.add (.sub (.sub (.add (.mul (.neg (.num 6 1)) (.sqrt (.div (.mul (.add (.num 1 1) (.mul (.num 2 1) (.var 0))) (.add (.num 1 1) (.var 1))) (.mul (.var 1) (.add (.neg (.num 1 1)) (.mul (.num 2 1) (.var 1))))))) (.mul (.num 16 1) (.sqrt (.div (.mul (.mul (.add (.num 1 1) (.mul (.num 2 1) (.var 0))) (.var 1)) (.add (.num 1 1) (.var 1))) (.add (.neg (.num 1 1)) (.mul (.num 2 1) (.var 1))))))) (.mul (.num 8 1) (.sqrt (.div (.mul (.mul (.add (.num 1 1) (.mul (.num 2 1) (.var 0))) (.pow (.var 1) 3)) (.add (.num 1 1) (.var 1))) (.add (.neg (.num 1 1)) (.mul (.num 2 1) (.var 1))))))) (.mul (.num 3 1) (.sqrt (.div (.mul (.add (.num 1 1) (.mul (.num 2 1) (.var 0))) (.add (.add (.neg (.num 1 1)) (.var 1)) (.mul (.num 2 1) (.pow (.var 1) 2)))) (.var 1))))) (.mul (.num 6 1) (.sqrt (.mul (.mul (.add (.num 1 1) (.mul (.num 2 1) (.var 0))) (.var 1)) (.add (.add (.neg (.num 1 1)) (.var 1)) (.mul (.num 2 1) (.pow (.var 1) 2))))))) (.mul (.mul (.num 2 1) (.var 1)) (.sqrt (.mul (.mul (.add (.num 1 1) (.mul (.num 2 1) (.var 0))) (.var 1)) (.add (.add (.neg (.num 1 1)) (.var 1)) (.mul (.num 2 1) (.pow (.var 1) 2))))))) (.mul (.num 2 1) (.sqrt (.mul (.mul (.add (.num 1 1) (.mul (.num 2 1) (.var 0))) (.pow (.var 1) 3)) (.add (.add (.neg (.num 1 1)) (.var 1)) (.mul (.num 2 1) (.pow (.var 1) 2)))))))) (.mul (.mul (.hpow (.add (.num 1 1) (.mul (.num 2 1) (.var 0))) 1) (.sqrt (.mul (.var 1) (.add (.add (.neg (.num 3 1)) (.var 1)) (.mul (.num 2 1) (.pow (.var 1) 2)))))) (.add (.add (.neg (.num 1 1)) (.var 1)) (.mul (.num 2 1) (.pow (.var 1) 2)))),
  .neg (.div (.mul (.mul (.sqrt (.add (.num 1 1) (.var 1))) (.add (.neg (.num 1 1)) (.mul (.num 2 1) (.var 1)))) (.add (.add (.sub (.sub (.mul (.neg (.num 9 1)) (.sqrt (.mul (.mul (.add (.num 1 1) (.mul (.num 2 1) (.var 0))) (.var 1)) (.add (.add (.neg (.num 3 1)) (.mul (.num 4 1) (.var 1))) (.mul (.num 4 1) (.pow (.var 1) 2)))))) (.mul (.mul (.num 3 1) (.var 1)) (.sqrt (.mul (.mul (.add (.num 1 1) (.mul (.num 2 1) (.var 0))) (.var 1)) (.add (.add (.neg (.num 3 1)) (.mul (.num 4 1) (.var 1))) (.mul (.num 4 1) (.pow (.var 1) 2))))))) (.mul (.mul (.num 7 1) (.pow (.var 1) 2)) (.sqrt (.mul (.mul (.add (.num 1 1) (.mul (.num 2 1) (.var 0))) (.var 1)) (.add (.add (.neg (.num 3 1)) (.mul (.num 4 1) (.var 1))) (.mul (.num 4 1) (.pow (.var 1) 2))))))) (.mul (.mul (.num 2 1) (.pow (.var 1) 3)) (.sqrt (.mul (.mul (.add (.num 1 1) (.mul (.num 2 1) (.var 0))) (.var 1)) (.add (.add (.neg (.num 3 1)) (.mul (.num 4 1) (.var 1))) (.mul (.num 4 1) (.pow (.var 1) 2))))))) (.mul (.num 12 1) (.sqrt (.mul (.mul (.add (.num 1 1) (.mul (.num 2 1) (.var 0))) (.pow (.var 1) 5)) (.add (.add (.neg (.num 3 1)) (.mul (.num 4 1) (.var 1))) (.mul (.num 4 1) (.pow (.var 1) 2)))))))) (.hpow (.mul (.mul (.add (.num 1 1) (.mul (.num 2 1) (.var 0))) (.var 1)) (.add (.add (.add (.neg (.num 3 1)) (.var 1)) (.mul (.num 8 1) (.pow (.var 1) 2))) (.mul (.num 4 1) (.pow (.var 1) 3)))) 1)),
  .neg (.div (.sqrt (.div (.add (.add (.neg (.num 6 1)) (.mul (.num 9 1) (.var 1))) (.mul (.num 6 1) (.pow (.var 1) 2))) (.mul (.var 1) (.add (.num 3 1) (.mul (.num 2 1) (.var 1)))))) (.mul (.add (.num 1 1) (.mul (.num 2 1) (.var 0))) (.add (.num 1 1) (.var 1)))),
  .div (.mul (.sqrt (.add (.num 3 1) (.div (.num 3 1) (.var 1)))) (.add (.sub (.add (.mul (.num 6 1) (.sqrt (.div (.add (.add (.add (.neg (.num 6 1)) (.mul (.num 5 1) (.var 1))) (.mul (.num 12 1) (.pow (.var 1) 2))) (.mul (.num 4 1) (.pow (.var 1) 3))) (.add (.num 1 1) (.mul (.num 2 1) (.var 1)))))) (.mul (.mul (.num 3 1) (.var 1)) (.sqrt (.div (.add (.add (.add (.neg (.num 6 1)) (.mul (.num 5 1) (.var 1))) (.mul (.num 12 1) (.pow (.var 1) 2))) (.mul (.num 4 1) (.pow (.var 1) 3))) (.add (.num 1 1) (.mul (.num 2 1) (.var 1))))))) (.mul (.mul (.num 6 1) (.pow (.var 1) 2)) (.sqrt (.div (.add (.add (.add (.neg (.num 6 1)) (.mul (.num 5 1) (.var 1))) (.mul (.num 12 1) (.pow (.var 1) 2))) (.mul (.num 4 1) (.pow (.var 1) 3))) (.add (.num 1 1) (.mul (.num 2 1) (.var 1))))))) (.mul (.mul (.num 4 1) (.var 1)) (.sqrt (.add (.add (.add (.sub (.neg (.num 6 1)) (.mul (.num 7 1) (.var 1))) (.mul (.num 22 1) (.pow (.var 1) 2))) (.mul (.num 28 1) (.pow (.var 1) 3))) (.mul (.num 8 1) (.pow (.var 1) 4))))))) (.mul (.add (.num 2 1) (.var 1)) (.hpow (.add (.add (.num 3 1) (.mul (.num 5 1) (.var 1))) (.mul (.num 2 1) (.pow (.var 1) 2))) 1)),
  .neg (.div (.add (.add (.neg (.num 2 1)) (.mul (.num 2 1) (.var 1))) (.pow (.var 1) 2)) (.mul (.add (.num 1 1) (.var 1)) (.sqrt (.mul (.var 1) (.add (.num 2 1) (.var 1)))))),
  .neg (.div (.mul (.sqrt (.num 2 1)) (.add (.mul (.mul (.num 45 1) (.var 1)) (.sqrt (.div (.mul (.var 1) (.add (.add (.num 3 1) (.mul (.num 5 1) (.var 1))) (.mul (.num 2 1) (.pow (.var 1) 2)))) (.add (.num 5 1) (.mul (.num 2 1) (.var 1)))))) (.mul (.num 2 1) (.add (.add (.sqrt (.div (.mul (.mul (.mul (.pow (.var 1) 3) (.pow (.add (.num 1 1) (.var 1)) 3)) (.pow (.add (.num 1 1) (.mul (.num 2 1) (.var 1))) 2)) (.add (.num 3 1) (.mul (.num 2 1) (.var 1)))) (.add (.num 5 1) (.mul (.num 2 1) (.var 1))))) (.mul (.num 15 1) (.sqrt (.div (.mul (.var 1) (.add (.add (.num 3 1) (.mul (.num 5 1) (.var 1))) (.mul (.num 2 1) (.pow (.var 1) 2)))) (.add (.num 5 1) (.mul (.num 2 1) (.var 1))))))) (.mul (.num 9 1) (.sqrt (.div (.mul (.pow (.var 1) 5) (.add (.add (.num 3 1) (.mul (.num 5 1) (.var 1))) (.mul (.num 2 1) (.pow (.var 1) 2)))) (.add (.num 5 1) (.mul (.num 2 1) (.var 1)))))))))) (.mul (.mul (.add (.num 1 1) (.var 1)) (.sqrt (.mul (.var 1) (.add (.num 5 1) (.mul (.num 2 1) (.var 1)))))) (.hpow (.add (.add (.num 6 1) (.mul (.num 7 1) (.var 1))) (.mul (.num 2 1) (.pow (.var 1) 2))) 1))),
  .neg (.div (.mul (.sqrt (.add (.num 3 1) (.div (.num 3 1) (.var 1)))) (.sub (.add (.sub (.mul (.neg (.num 6 1)) (.sqrt (.div (.mul (.add (.num 2 1) (.var 1)) (.add (.add (.neg (.num 3 1)) (.mul (.num 4 1) (.var 1))) (.mul (.num 4 1) (.pow (.var 1) 2)))) (.add (.num 1 1) (.mul (.num 2 1) (.var 1)))))) (.mul (.mul (.num 3 1) (.var 1)) (.sqrt (.div (.mul (.add (.num 2 1) (.var 1)) (.add (.add (.neg (.num 3 1)) (.mul (.num 4 1) (.var 1))) (.mul (.num 4 1) (.pow (.var 1) 2)))) (.add (.num 1 1) (.mul (.num 2 1) (.var 1))))))) (.mul (.mul (.num 6 1) (.pow (.var 1) 2)) (.sqrt (.div (.mul (.add (.num 2 1) (.var 1)) (.add (.add (.neg (.num 3 1)) (.mul (.num 4 1) (.var 1))) (.mul (.num 4 1) (.pow (.var 1) 2)))) (.add (.num 1 1) (.mul (.num 2 1) (.var 1))))))) (.mul (.mul (.num 4 1) (.var 1)) (.sqrt (.mul (.add (.num 3 1) (.mul (.num 2 1) (.var 1))) (.add (.add (.sub (.neg (.num 2 1)) (.var 1)) (.mul (.num 8 1) (.pow (.var 1) 2))) (.mul (.num 4 1) (.pow (.var 1) 3)))))))) (.mul (.mul (.add (.num 1 1) (.mul (.num 2 1) (.var 0))) (.add (.num 2 1) (.var 1))) (.hpow (.add (.add (.num 3 1) (.mul (.num 5 1) (.var 1))) (.mul (.num 2 1) (.pow (.var 1) 2))) 1))),
  .div (.add (.add (.sub (.sub (.mul (.mul (.num 5 1) (.pow (.var 1) 2)) (.sqrt (.mul (.mul (.add (.num 1 1) (.mul (.num 2 1) (.var 0))) (.var 1)) (.add (.num 1 1) (.var 1))))) (.mul (.mul (.num 2 1) (.pow (.var 1) 4)) (.sqrt (.mul (.mul (.add (.num 1 1) (.mul (.num 2 1) (.var 0))) (.var 1)) (.add (.num 1 1) (.var 1)))))) (.mul (.num 3 1) (.add (.add (.mul (.num 4 1) (.sqrt (.div (.mul (.mul (.add (.num 1 1) (.mul (.num 2 1) (.var 0))) (.pow (.sub (.num 1 1) (.mul (.num 2 1) (.var 1))) 2)) (.var 1)) (.add (.num 1 1) (.var 1))))) (.mul (.num 7 1) (.sqrt (.div (.mul (.add (.num 1 1) (.mul (.num 2 1) (.var 0))) (.pow (.var 1) 5)) (.add (.num 1 1) (.var 1)))))) (.mul (.num 9 1) (.sqrt (.div (.mul (.add (.num 1 1) (.mul (.num 2 1) (.var 0))) (.pow (.var 1) 7)) (.add (.num 1 1) (.var 1)))))))) (.mul (.pow (.var 1) 3) (.sub (.sqrt (.mul (.mul (.add (.num 1 1) (.mul (.num 2 1) (.var 0))) (.var 1)) (.add (.num 1 1) (.var 1)))) (.mul (.num 6 1) (.sqrt (.div (.mul (.mul (.add (.num 1 1) (.mul (.num 2 1) (.var 0))) (.var 1)) (.pow (.add (.num 1 1) (.mul (.num 2 1) (.var 1))) 2)) (.add (.num 1 1) (.var 1)))))))) (.mul (.mul (.num 2 1) (.var 1)) (.add (.sqrt (.mul (.mul (.add (.num 1 1) (.mul (.num 2 1) (.var 0))) (.var 1)) (.add (.num 1 1) (.var 1)))) (.mul (.num 18 1) (.sqrt (.div (.add (.var 1) (.mul (.mul (.num 2 1) (.var 0)) (.var 1))) (.add (.num 1 1) (.var 1)))))))) (.mul (.mul (.var 1) (.add (.num 3 1) (.mul (.num 2 1) (.var 1)))) (.hpow (.mul (.add (.num 1 1) (.mul (.num 2 1) (.var 0))) (.add (.add (.num 2 1) (.mul (.num 3 1) (.var 1))) (.pow (.var 1) 2))) 1)),
  .neg (.div (.mul (.sqrt (.num 2 1)) (.add (.mul (.mul (.num 45 1) (.var 1)) (.sqrt (.div (.mul (.var 1) (.add (.add (.num 3 1) (.mul (.num 5 1) (.var 1))) (.mul (.num 2 1) (.pow (.var 1) 2)))) (.add (.num 5 1) (.mul (.num 2 1) (.var 1)))))) (.mul (.num 2 1) (.add (.add (.sqrt (.div (.mul (.mul (.mul (.pow (.var 1) 3) (.pow (.add (.num 1 1) (.var 1)) 3)) (.pow (.add (.num 1 1) (.mul (.num 2 1) (.var 1))) 2)) (.add (.num 3 1) (.mul (.num 2 1) (.var 1)))) (.add (.num 5 1) (.mul (.num 2 1) (.var 1))))) (.mul (.num 15 1) (.sqrt (.div (.mul (.var 1) (.add (.add (.num 3 1) (.mul (.num 5 1) (.var 1))) (.mul (.num 2 1) (.pow (.var 1) 2)))) (.add (.num 5 1) (.mul (.num 2 1) (.var 1))))))) (.mul (.num 9 1) (.sqrt (.div (.mul (.pow (.var 1) 5) (.add (.add (.num 3 1) (.mul (.num 5 1) (.var 1))) (.mul (.num 2 1) (.pow (.var 1) 2)))) (.add (.num 5 1) (.mul (.num 2 1) (.var 1)))))))))) (.mul (.mul (.mul (.add (.num 1 1) (.mul (.num 2 1) (.var 0))) (.add (.num 1 1) (.var 1))) (.sqrt (.mul (.var 1) (.add (.num 5 1) (.mul (.num 2 1) (.var 1)))))) (.hpow (.add (.add (.num 6 1) (.mul (.num 7 1) (.var 1))) (.mul (.num 2 1) (.pow (.var 1) 2))) 1))),
  .div (.mul (.sqrt (.num 2 1)) (.add (.mul (.num 5 1) (.sqrt (.mul (.var 1) (.add (.num 1 1) (.var 1))))) (.mul (.num 2 1) (.sqrt (.mul (.pow (.var 1) 3) (.add (.num 1 1) (.var 1))))))) (.mul (.add (.num 1 1) (.var 1)) (.sqrt (.mul (.mul (.var 1) (.add (.num 5 1) (.mul (.num 2 1) (.var 1)))) (.add (.add (.num 6 1) (.mul (.num 7 1) (.var 1))) (.mul (.num 2 1) (.pow (.var 1) 2)))))),
  .neg (.div (.add (.num 3 1) (.var 1)) (.sqrt (.add (.add (.add (.num 11 1) (.div (.num 6 1) (.var 1))) (.mul (.num 6 1) (.var 1))) (.pow (.var 1) 2)))),
  .div (.mul (.sqrt (.div (.add (.num 2 1) (.mul (.num 4 1) (.var 1))) (.add (.mul (.num 5 1) (.var 1)) (.mul (.num 2 1) (.pow (.var 1) 2))))) (.add (.sub (.add (.sub (.add (.sub (.sub (.mul (.mul (.mul (.mul (.num 2 1) (.add (.num 1 1) (.mul (.num 2 1) (.var 0)))) (.sqrt (.div (.mul (.mul (.var 1) (.add (.num 1 1) (.var 1))) (.add (.num 1 1) (.mul (.num 2 1) (.var 1)))) (.add (.num 2 1) (.var 1))))) (.hpow (.add (.num 3 1) (.mul (.num 2 1) (.var 1))) 1)) (.add (.add (.num 2 1) (.mul (.num 3 1) (.var 1))) (.pow (.var 1) 2))) (.mul (.mul (.mul (.mul (.add (.num 1 1) (.mul (.num 2 1) (.var 0))) (.var 1)) (.sqrt (.div (.mul (.mul (.var 1) (.add (.num 1 1) (.var 1))) (.add (.num 1 1) (.mul (.num 2 1) (.var 1)))) (.add (.num 2 1) (.var 1))))) (.hpow (.add (.num 3 1) (.mul (.num 2 1) (.var 1))) 1)) (.add (.add (.num 2 1) (.mul (.num 3 1) (.var 1))) (.pow (.var 1) 2)))) (.mul (.mul (.mul (.num 9 1) (.add (.num 1 1) (.mul (.num 2 1) (.var 0)))) (.hpow (.var 1) 1)) (.sqrt (.mul (.mul (.add (.num 1 1) (.var 1)) (.add (.num 1 1) (.mul (.num 2 1) (.var 1)))) (.add (.add (.num 6 1) (.mul (.num 7 1) (.var 1))) (.mul (.num 2 1) (.pow (.var 1) 2))))))) (.mul (.mul (.num 6 1) (.add (.num 1 1) (.mul (.num 2 1) (.var 0)))) (.sqrt (.mul (.mul (.mul (.var 1) (.add (.num 1 1) (.var 1))) (.add (.num 1 1) (.mul (.num 2 1) (.var 1)))) (.add (.add (.num 6 1) (.mul (.num 7 1) (.var 1))) (.mul (.num 2 1) (.pow (.var 1) 2))))))) (.mul (.mul (.mul (.mul (.num 6 1) (.add (.num 1 1) (.mul (.num 2 1) (.var 0)))) (.hpow (.var 1) 1)) (.sqrt (.div (.add (.add (.num 1 1) (.mul (.num 3 1) (.var 1))) (.mul (.num 2 1) (.pow (.var 1) 2))) (.add (.add (.num 6 1) (.mul (.num 7 1) (.var 1))) (.mul (.num 2 1) (.pow (.var 1) 2)))))) (.add (.add (.add (.num 6 1) (.mul (.num 13 1) (.var 1))) (.mul (.num 9 1) (.pow (.var 1) 2))) (.mul (.num 2 1) (.pow (.var 1) 3))))) (.mul (.mul (.mul (.num 6 1) (.add (.num 1 1) (.mul (.num 2 1) (.var 0)))) (.sqrt (.div (.mul (.var 1) (.add (.add (.num 1 1) (.mul (.num 3 1) (.var 1))) (.mul (.num 2 1) (.pow (.var 1) 2)))) (.add (.add (.num 6 1) (.mul (.num 7 1) (.var 1))) (.mul (.num 2 1) (.pow (.var 1) 2)))))) (.add (.add (.add (.num 6 1) (.mul (.num 13 1) (.var 1))) (.mul (.num 9 1) (.pow (.var 1) 2))) (.mul (.num 2 1) (.pow (.var 1) 3))))) (.mul (.mul (.mul (.num 6 1) (.add (.num 1 1) (.mul (.num 2 1) (.var 0)))) (.add (.neg (.num 1 1)) (.mul (.num 2 1) (.var 1)))) (.sqrt (.div (.mul (.var 1) (.add (.add (.add (.num 6 1) (.mul (.num 13 1) (.var 1))) (.mul (.num 9 1) (.pow (.var 1) 2))) (.mul (.num 2 1) (.pow (.var 1) 3)))) (.add (.num 1 1) (.mul (.num 2 1) (.var 1))))))) (.sqrt (.mul (.mul (.mul (.pow (.add (.num 1 1) (.mul (.num 2 1) (.var 0))) 2) (.var 1)) (.add (.num 1 1) (.mul (.num 2 1) (.var 1)))) (.pow (.add (.add (.add (.num 6 1) (.mul (.num 13 1) (.var 1))) (.mul (.num 9 1) (.pow (.var 1) 2))) (.mul (.num 2 1) (.pow (.var 1) 3))) 3))))) (.mul (.mul (.pow (.add (.num 1 1) (.mul (.num 2 1) (.var 0))) 2) (.add (.num 1 1) (.var 1))) (.pow (.add (.add (.num 6 1) (.mul (.num 7 1) (.var 1))) (.mul (.num 2 1) (.pow (.var 1) 2))) 2)),
  .neg (.div (.mul (.add (.num 3 1) (.var 1)) (.sqrt (.div (.var 1) (.add (.add (.add (.num 6 1) (.mul (.num 11 1) (.var 1))) (.mul (.num 6 1) (.pow (.var 1) 2))) (.pow (.var 1) 3))))) (.add (.num 1 1) (.mul (.num 2 1) (.var 0)))),
  .div (.mul (.neg (.num 2 1)) (.sqrt (.div (.mul (.mul (.var 0) (.add (.num 1 1) (.var 0))) (.add (.sub (.neg (.num 2 1)) (.var 1)) (.pow (.var 1) 2))) (.mul (.add (.neg (.num 1 1)) (.var 1)) (.var 1))))) (.add (.num 1 1) (.mul (.num 2 1) (.var 0))),
  .div (.mul (.mul (.neg (.num 2 1)) (.sqrt (.num 2 1))) (.sqrt (.div (.mul (.mul (.var 0) (.add (.num 1 1) (.var 0))) (.add (.neg (.num 3 1)) (.mul (.num 2 1) (.var 1)))) (.mul (.var 1) (.add (.sub (.num 1 1) (.mul (.num 3 1) (.var 1))) (.mul (.num 2 1) (.pow (.var 1) 2))))))) (.add (.num 1 1) (.mul (.num 2 1) (.var 0))),
  .div (.mul (.mul (.mul (.num 2 1) (.sqrt (.num 2 1))) (.sqrt (.div (.add (.num 1 1) (.var 0)) (.var 1)))) (.sub (.add (.add (.mul (.num 2 1) (.sqrt (.div (.var 0) (.add (.neg (.num 1 1)) (.var 1))))) (.mul (.mul (.num 2 1) (.var 0)) (.sqrt (.div (.var 0) (.add (.neg (.num 1 1)) (.var 1)))))) (.sqrt (.mul (.var 0) (.add (.neg (.num 1 1)) (.var 1))))) (.mul (.sqrt (.div (.var 0) (.add (.neg (.num 1 1)) (.var 1)))) (.var 1)))) (.pow (.add (.num 1 1) (.mul (.num 2 1) (.var 0))) 2),
  .div (.mul (.mul (.neg (.num 2 1)) (.add (.num 1 1) (.var 0))) (.add (.mul (.neg (.num 3 1)) (.add (.mul (.num 2 1) (.sqrt (.div (.var 0) (.mul (.add (.num 1 1) (.var 0)) (.add (.neg (.num 1 1)) (.var 1)))))) (.sqrt (.div (.mul (.var 0) (.add (.neg (.num 1 1)) (.var 1))) (.add (.num 1 1) (.var 0)))))) (.mul (.add (.mul (.num 4 1) (.sqrt (.div (.var 0) (.mul (.add (.num 1 1) (.var 0)) (.add (.neg (.num 1 1)) (.var 1)))))) (.sqrt (.div (.mul (.var 0) (.add (.neg (.num 1 1)) (.var 1))) (.add (.num 1 1) (.var 0))))) (.var 1)))) (.mul (.sqrt (.add (.num 1 1) (.var 1))) (.add (.var 1) (.mul (.mul (.num 2 1) (.var 0)) (.var 1)))),
  .div (.mul (.mul (.mul (.neg (.num 2 1)) (.sqrt (.num 3 1))) (.add (.num 1 1) (.var 0))) (.add (.sub (.add (.mul (.num 6 1) (.sqrt (.div (.mul (.var 0) (.add (.neg (.num 1 1)) (.var 1))) (.mul (.add (.num 1 1) (.var 0)) (.add (.add (.num 3 1) (.mul (.num 8 1) (.var 1))) (.mul (.num 4 1) (.pow (.var 1) 2))))))) (.mul (.num 3 1) (.sqrt (.div (.var 0) (.mul (.add (.num 1 1) (.var 0)) (.add (.add (.sub (.neg (.num 3 1)) (.mul (.num 5 1) (.var 1))) (.mul (.num 4 1) (.pow (.var 1) 2))) (.mul (.num 4 1) (.pow (.var 1) 3)))))))) (.mul (.mul (.num 5 1) (.var 1)) (.sqrt (.div (.var 0) (.mul (.add (.num 1 1) (.var 0)) (.add (.add (.sub (.neg (.num 3 1)) (.mul (.num 5 1) (.var 1))) (.mul (.num 4 1) (.pow (.var 1) 2))) (.mul (.num 4 1) (.pow (.var 1) 3)))))))) (.mul (.mul (.num 2 1) (.pow (.var 1) 2)) (.sqrt (.div (.var 0) (.mul (.add (.num 1 1) (.var 0)) (.add (.add (.sub (.neg (.num 3 1)) (.mul (.num 5 1) (.var 1))) (.mul (.num 4 1) (.pow (.var 1) 2))) (.mul (.num 4 1) (.pow (.var 1) 3))))))))) (.mul (.sqrt (.add (.num 1 1) (.var 1))) (.add (.var 1) (.mul (.mul (.num 2 1) (.var 0)) (.var 1)))),
  .div (.mul (.mul (.mul (.num 2 1) (.sqrt (.num 3 1))) (.add (.num 1 1) (.var 0))) (.sub (.add (.add (.mul (.num 3 1) (.sqrt (.div (.mul (.var 0) (.add (.neg (.num 1 1)) (.var 1))) (.mul (.add (.num 1 1) (.var 0)) (.add (.add (.neg (.num 3 1)) (.mul (.num 4 1) (.var 1))) (.mul (.num 4 1) (.pow (.var 1) 2))))))) (.mul (.mul (.num 2 1) (.pow (.var 1) 3)) (.sqrt (.div (.var 0) (.mul (.add (.num 1 1) (.var 0)) (.add (.sub (.num 3 1) (.mul (.num 7 1) (.var 1))) (.mul (.num 4 1) (.pow (.var 1) 3)))))))) (.mul (.var 1) (.add (.mul (.num 3 1) (.sqrt (.div (.mul (.var 0) (.add (.neg (.num 1 1)) (.var 1))) (.mul (.add (.num 1 1) (.var 0)) (.add (.add (.neg (.num 3 1)) (.mul (.num 4 1) (.var 1))) (.mul (.num 4 1) (.pow (.var 1) 2))))))) (.sqrt (.div (.var 0) (.mul (.add (.num 1 1) (.var 0)) (.add (.sub (.num 3 1) (.mul (.num 7 1) (.var 1))) (.mul (.num 4 1) (.pow (.var 1) 3))))))))) (.mul (.pow (.var 1) 2) (.add (.mul (.num 2 1) (.sqrt (.div (.mul (.var 0) (.add (.neg (.num 1 1)) (.var 1))) (.mul (.add (.num 1 1) (.var 0)) (.add (.add (.neg (.num 3 1)) (.mul (.num 4 1) (.var 1))) (.mul (.num 4 1) (.pow (.var 1) 2))))))) (.mul (.num 3 1) (.sqrt (.div (.var 0) (.mul (.add (.num 1 1) (.var 0)) (.add (.sub (.num 3 1) (.mul (.num 7 1) (.var 1))) (.mul (.num 4 1) (.pow (.var 1) 3))))))))))) (.mul (.sqrt (.add (.num 1 1) (.var 1))) (.add (.var 1) (.mul (.mul (.num 2 1) (.var 0)) (.var 1)))),
  .mul (.neg (.num 1 2)) (.mul (.sqrt (.add (.num 1 1) (.var 1))) (.add (.add (.add (.add (.add (.mul (.num 36 1) (.sqrt (.div (.mul (.var 0) (.pow (.add (.neg (.num 1 1)) (.var 1)) 2)) (.mul (.mul (.mul (.add (.num 1 1) (.var 0)) (.pow (.var 1) 2)) (.pow (.add (.num 1 1) (.var 1)) 3)) (.pow (.add (.num 3 1) (.mul (.num 2 1) (.var 1))) 2))))) (.div (.mul (.mul (.num 36 1) (.sqrt (.div (.var 0) (.add (.num 1 1) (.var 0))))) (.add (.neg (.num 1 1)) (.var 1))) (.mul (.mul (.mul (.add (.num 1 1) (.mul (.num 2 1) (.var 0))) (.var 1)) (.hpow (.add (.num 1 1) (.var 1)) 1)) (.add (.num 3 1) (.mul (.num 2 1) (.var 1)))))) (.div (.mul (.mul (.mul (.num 2 1) (.sqrt (.div (.var 0) (.add (.num 1 1) (.var 0))))) (.add (.neg (.num 3 1)) (.var 1))) (.add (.neg (.num 1 1)) (.mul (.num 2 1) (.var 1)))) (.mul (.hpow (.add (.num 1 1) (.var 1)) 1) (.add (.num 3 1) (.mul (.num 2 1) (.var 1)))))) (.div (.mul (.mul (.num 2 1) (.add (.neg (.num 3 1)) (.var 1))) (.add (.neg (.num 1 1)) (.mul (.num 2 1) (.var 1)))) (.mul (.sqrt (.div (.mul (.mul (.add (.num 1 1) (.var 0)) (.pow (.add (.num 1 1) (.mul (.num 2 1) (.var 0))) 2)) (.add (.num 1 1) (.var 1))) (.var 0))) (.add (.add (.num 3 1) (.mul (.num 5 1) (.var 1))) (.mul (.num 2 1) (.pow (.var 1) 2)))))) (.div (.mul (.mul (.mul (.num 6 1) (.add (.neg (.num 3 1)) (.mul (.num 2 1) (.var 1)))) (.add (.neg (.num 1 1)) (.mul (.num 2 1) (.var 1)))) (.sqrt (.div (.var 0) (.add (.add (.add (.num 1 1) (.var 0)) (.var 1)) (.mul (.var 0) (.var 1)))))) (.mul (.var 1) (.add (.add (.num 3 1) (.mul (.num 5 1) (.var 1))) (.mul (.num 2 1) (.pow (.var 1) 2)))))) (.div (.mul (.mul (.num 6 1) (.add (.neg (.num 3 1)) (.mul (.num 2 1) (.var 1)))) (.add (.neg (.num 1 1)) (.mul (.num 2 1) (.var 1)))) (.mul (.sqrt (.div (.mul (.mul (.add (.num 1 1) (.var 0)) (.add (.num 1 1) (.var 1))) (.pow (.add (.var 1) (.mul (.mul (.num 2 1) (.var 0)) (.var 1))) 2)) (.var 0))) (.add (.add (.num 3 1) (.mul (.num 5 1) (.var 1))) (.mul (.num 2 1) (.pow (.var 1) 2))))))),
  .neg (.mul (.mul (.sqrt (.num 3 1)) (.sqrt (.add (.num 1 1) (.var 1)))) (.add (.add (.add (.add (.add (.mul (.num 12 1) (.sqrt (.div (.mul (.var 0) (.add (.neg (.num 1 1)) (.mul (.num 2 1) (.var 1)))) (.mul (.mul (.mul (.add (.num 1 1) (.var 0)) (.var 1)) (.add (.num 2 1) (.var 1))) (.pow (.add (.add (.num 3 1) (.mul (.num 5 1) (.var 1))) (.mul (.num 2 1) (.pow (.var 1) 2))) 3))))) (.mul (.mul (.mul (.mul (.num 2 1) (.add (.neg (.num 1 1)) (.var 1))) (.var 1)) (.add (.neg (.num 1 1)) (.mul (.num 2 1) (.var 1)))) (.sqrt (.div (.var 0) (.mul (.mul (.mul (.add (.num 1 1) (.var 0)) (.var 1)) (.add (.add (.neg (.num 2 1)) (.mul (.num 3 1) (.var 1))) (.mul (.num 2 1) (.pow (.var 1) 2)))) (.pow (.add (.add (.num 3 1) (.mul (.num 5 1) (.var 1))) (.mul (.num 2 1) (.pow (.var 1) 2))) 3)))))) (.mul (.mul (.mul (.num 3 1) (.add (.neg (.num 1 1)) (.mul (.num 2 1) (.var 1)))) (.add (.neg (.num 2 1)) (.mul (.num 3 1) (.var 1)))) (.sqrt (.div (.var 0) (.mul (.mul (.mul (.add (.num 1 1) (.var 0)) (.var 1)) (.add (.add (.neg (.num 2 1)) (.mul (.num 3 1) (.var 1))) (.mul (.num 2 1) (.pow (.var 1) 2)))) (.pow (.add (.add (.num 3 1) (.mul (.num 5 1) (.var 1))) (.mul (.num 2 1) (.pow (.var 1) 2))) 3)))))) (.div (.mul (.num 12 1) (.sqrt (.div (.mul (.var 0) (.add (.neg (.num 1 1)) (.mul (.num 2 1) (.var 1)))) (.mul (.mul (.mul (.add (.num 1 1) (.var 0)) (.pow (.add (.num 1 1) (.mul (.num 2 1) (.var 0))) 2)) (.var 1)) (.add (.add (.add (.num 6 1) (.mul (.num 13 1) (.var 1))) (.mul (.num 9 1) (.pow (.var 1) 2))) (.mul (.num 2 1) (.pow (.var 1) 3))))))) (.add (.add (.num 3 1) (.mul (.num 5 1) (.var 1))) (.mul (.num 2 1) (.pow (.var 1) 2))))) (.div (.mul (.mul (.mul (.mul (.num 2 1) (.add (.neg (.num 1 1)) (.var 1))) (.var 1)) (.add (.neg (.num 1 1)) (.mul (.num 2 1) (.var 1)))) (.sqrt (.div (.var 0) (.mul (.mul (.mul (.add (.num 1 1) (.var 0)) (.pow (.add (.num 1 1) (.mul (.num 2 1) (.var 0))) 2)) (.var 1)) (.add (.add (.add (.sub (.neg (.num 6 1)) (.var 1)) (.mul (.num 17 1) (.pow (.var 1) 2))) (.mul (.num 16 1) (.pow (.var 1) 3))) (.mul (.num 4 1) (.pow (.var 1) 4))))))) (.add (.add (.num 3 1) (.mul (.num 5 1) (.var 1))) (.mul (.num 2 1) (.pow (.var 1) 2))))) (.div (.mul (.mul (.mul (.num 3 1) (.add (.neg (.num 1 1)) (.mul (.num 2 1) (.var 1)))) (.add (.neg (.num 2 1)) (.mul (.num 3 1) (.var 1)))) (.sqrt (.div (.var 0) (.mul (.mul (.mul (.add (.num 1 1) (.var 0)) (.pow (.add (.num 1 1) (.mul (.num 2 1) (.var 0))) 2)) (.var 1)) (.add (.add (.add (.sub (.neg (.num 6 1)) (.var 1)) (.mul (.num 17 1) (.pow (.var 1) 2))) (.mul (.num 16 1) (.pow (.var 1) 3))) (.mul (.num 4 1) (.pow (.var 1) 4))))))) (.add (.add (.num 3 1) (.mul (.num 5 1) (.var 1))) (.mul (.num 2 1) (.pow (.var 1) 2)))))),
  .mul (.neg (.num 1 2)) (.mul (.mul (.sqrt (.num 3 1)) (.sqrt (.add (.num 1 1) (.var 1)))) (.sub (.add (.add (.add (.add (.add (.sub (.div (.num 12 1) (.sqrt (.div (.mul (.mul (.mul (.mul (.mul (.mul (.add (.num 1 1) (.var 0)) (.pow (.add (.num 1 1) (.mul (.num 2 1) (.var 0))) 2)) (.var 1)) (.pow (.add (.num 1 1) (.var 1)) 3)) (.add (.num 2 1) (.var 1))) (.add (.num 1 1) (.mul (.num 2 1) (.var 1)))) (.pow (.add (.num 3 1) (.mul (.num 2 1) (.var 1))) 2)) (.mul (.mul (.var 0) (.pow (.add (.neg (.num 1 1)) (.var 1)) 2)) (.add (.neg (.num 1 1)) (.mul (.num 2 1) (.var 1))))))) (.div (.mul (.mul (.num 2 1) (.var 1)) (.add (.neg (.num 1 1)) (.mul (.num 2 1) (.var 1)))) (.sqrt (.div (.mul (.mul (.mul (.mul (.add (.num 1 1) (.var 0)) (.var 1)) (.add (.num 2 1) (.var 1))) (.pow (.add (.num 3 1) (.mul (.num 2 1) (.var 1))) 2)) (.add (.add (.neg (.num 1 1)) (.var 1)) (.mul (.num 2 1) (.pow (.var 1) 2)))) (.add (.var 0) (.mul (.mul (.num 2 1) (.var 0)) (.var 1))))))) (.mul (.mul (.mul (.num 2 1) (.var 1)) (.add (.sub (.num 3 1) (.mul (.num 7 1) (.var 1))) (.mul (.num 2 1) (.pow (.var 1) 2)))) (.sqrt (.div (.mul (.var 0) (.add (.num 1 1) (.mul (.num 2 1) (.var 1)))) (.mul (.mul (.mul (.mul (.add (.num 1 1) (.var 0)) (.var 1)) (.pow (.add (.num 1 1) (.var 1)) 3)) (.pow (.add (.num 3 1) (.mul (.num 2 1) (.var 1))) 2)) (.add (.add (.neg (.num 2 1)) (.mul (.num 3 1) (.var 1))) (.mul (.num 2 1) (.pow (.var 1) 2)))))))) (.mul (.mul (.mul (.num 2 1) (.var 1)) (.add (.sub (.num 3 1) (.mul (.num 7 1) (.var 1))) (.mul (.num 2 1) (.pow (.var 1) 2)))) (.sqrt (.div (.mul (.var 0) (.add (.num 1 1) (.mul (.num 2 1) (.var 1)))) (.mul (.mul (.mul (.mul (.mul (.add (.num 1 1) (.var 0)) (.pow (.add (.num 1 1) (.mul (.num 2 1) (.var 0))) 2)) (.var 1)) (.pow (.add (.num 1 1) (.var 1)) 3)) (.pow (.add (.num 3 1) (.mul (.num 2 1) (.var 1))) 2)) (.add (.add (.neg (.num 2 1)) (.mul (.num 3 1) (.var 1))) (.mul (.num 2 1) (.pow (.var 1) 2)))))))) (.mul (.mul (.mul (.num 6 1) (.var 1)) (.add (.neg (.num 3 1)) (.mul (.num 2 1) (.var 1)))) (.sqrt (.div (.mul (.var 0) (.add (.neg (.num 1 1)) (.mul (.num 2 1) (.var 1)))) (.mul (.mul (.mul (.mul (.add (.num 1 1) (.var 0)) (.var 1)) (.pow (.add (.num 1 1) (.var 1)) 3)) (.pow (.add (.num 3 1) (.mul (.num 2 1) (.var 1))) 2)) (.add (.add (.num 2 1) (.mul (.num 5 1) (.var 1))) (.mul (.num 2 1) (.pow (.var 1) 2)))))))) (.mul (.num 12 1) (.sqrt (.div (.mul (.mul (.var 0) (.pow (.add (.neg (.num 1 1)) (.var 1)) 2)) (.add (.neg (.num 1 1)) (.mul (.num 2 1) (.var 1)))) (.mul (.mul (.mul (.mul (.add (.num 1 1) (.var 0)) (.var 1)) (.pow (.add (.num 1 1) (.var 1)) 3)) (.pow (.add (.num 3 1) (.mul (.num 2 1) (.var 1))) 2)) (.add (.add (.num 2 1) (.mul (.num 5 1) (.var 1))) (.mul (.num 2 1) (.pow (.var 1) 2)))))))) (.div (.mul (.num 6 1) (.add (.neg (.num 3 1)) (.mul (.num 2 1) (.var 1)))) (.mul (.sqrt (.div (.mul (.mul (.mul (.add (.num 1 1) (.var 0)) (.pow (.add (.num 1 1) (.mul (.num 2 1) (.var 0))) 2)) (.add (.num 2 1) (.var 1))) (.add (.add (.num 1 1) (.mul (.num 3 1) (.var 1))) (.mul (.num 2 1) (.pow (.var 1) 2)))) (.mul (.mul (.var 0) (.var 1)) (.add (.neg (.num 1 1)) (.mul (.num 2 1) (.var 1)))))) (.add (.add (.num 3 1) (.mul (.num 5 1) (.var 1))) (.mul (.num 2 1) (.pow (.var 1) 2)))))) (.mul (.mul (.mul (.num 2 1) (.var 1)) (.add (.neg (.num 1 1)) (.mul (.num 2 1) (.var 1)))) (.sqrt (.div (.mul (.var 0) (.add (.num 1 1) (.mul (.num 2 1) (.var 1)))) (.mul (.mul (.mul (.mul (.add (.num 1 1) (.var 0)) (.pow (.add (.num 1 1) (.mul (.num 2 1) (.var 0))) 2)) (.var 1)) (.pow (.add (.num 3 1) (.mul (.num 2 1) (.var 1))) 2)) (.add (.add (.add (.neg (.num 2 1)) (.var 1)) (.mul (.num 5 1) (.pow (.var 1) 2))) (.mul (.num 2 1) (.pow (.var 1) 3))))))))),
  .mul (.neg (.num 1 2)) (.mul (.sqrt (.add (.num 1 1) (.var 1))) (.add (.add (.add (.add (.add (.add (.add (.div (.mul (.mul (.num 2 1) (.add (.neg (.num 2 1)) (.var 1))) (.var 1)) (.sqrt (.div (.mul (.mul (.mul (.mul (.add (.num 1 1) (.var 0)) (.var 1)) (.add (.num 1 1) (.var 1))) (.pow (.add (.num 2 1) (.var 1)) 3)) (.pow (.add (.num 3 1) (.mul (.num 2 1) (.var 1))) 2)) (.mul (.var 0) (.pow (.add (.num 1 1) (.mul (.num 2 1) (.var 1))) 2))))) (.mul (.mul (.mul (.num 2 1) (.add (.neg (.num 2 1)) (.var 1))) (.var 1)) (.sqrt (.div (.mul (.var 0) (.pow (.add (.num 1 1) (.mul (.num 2 1) (.var 1))) 2)) (.mul (.mul (.mul (.mul (.add (.num 1 1) (.var 0)) (.pow (.add (.num 1 1) (.mul (.num 2 1) (.var 0))) 2)) (.pow (.add (.num 2 1) (.var 1)) 3)) (.pow (.add (.num 3 1) (.mul (.num 2 1) (.var 1))) 2)) (.add (.var 1) (.pow (.var 1) 2))))))) (.mul (.mul (.mul (.num 18 1) (.var 1)) (.add (.neg (.num 2 1)) (.mul (.num 3 1) (.var 1)))) (.sqrt (.div (.var 0) (.mul (.mul (.mul (.add (.num 1 1) (.var 0)) (.var 1)) (.pow (.add (.num 3 1) (.mul (.num 2 1) (.var 1))) 2)) (.pow (.add (.add (.num 2 1) (.mul (.num 3 1) (.var 1))) (.pow (.var 1) 2)) 3)))))) (.mul (.mul (.mul (.num 12 1) (.add (.neg (.num 1 1)) (.var 1))) (.var 1)) (.sqrt (.div (.mul (.var 0) (.pow (.add (.num 1 1) (.mul (.num 2 1) (.var 1))) 2)) (.mul (.mul (.mul (.add (.num 1 1) (.var 0)) (.var 1)) (.pow (.add (.num 3 1) (.mul (.num 2 1) (.var 1))) 2)) (.pow (.add (.add (.num 2 1) (.mul (.num 3 1) (.var 1))) (.pow (.var 1) 2)) 3)))))) (.div (.mul (.mul (.mul (.num 12 1) (.add (.neg (.num 1 1)) (.var 1))) (.sqrt (.div (.mul (.var 0) (.var 1)) (.add (.num 1 1) (.var 0))))) (.add (.num 1 1) (.mul (.num 2 1) (.var 1)))) (.mul (.mul (.add (.num 1 1) (.mul (.num 2 1) (.var 0))) (.add (.num 3 1) (.mul (.num 2 1) (.var 1)))) (.hpow (.add (.add (.num 2 1) (.mul (.num 3 1) (.var 1))) (.pow (.var 1) 2)) 1)))) (.div (.mul (.mul (.num 24 1) (.add (.neg (.num 1 1)) (.mul (.num 2 1) (.var 1)))) (.sqrt (.div (.var 0) (.add (.var 1) (.mul (.var 0) (.var 1)))))) (.mul (.add (.num 3 1) (.mul (.num 2 1) (.var 1))) (.hpow (.add (.add (.num 2 1) (.mul (.num 3 1) (.var 1))) (.pow (.var 1) 2)) 1)))) (.div (.mul (.num 18 1) (.add (.neg (.num 2 1)) (.mul (.num 3 1) (.var 1)))) (.mul (.sqrt (.div (.mul (.mul (.add (.num 1 1) (.var 0)) (.pow (.add (.num 1 1) (.mul (.num 2 1) (.var 0))) 2)) (.add (.add (.num 2 1) (.mul (.num 3 1) (.var 1))) (.pow (.var 1) 2))) (.mul (.var 0) (.var 1)))) (.add (.add (.add (.num 6 1) (.mul (.num 13 1) (.var 1))) (.mul (.num 9 1) (.pow (.var 1) 2))) (.mul (.num 2 1) (.pow (.var 1) 3)))))) (.div (.mul (.num 24 1) (.add (.neg (.num 1 1)) (.mul (.num 2 1) (.var 1)))) (.mul (.mul (.add (.num 1 1) (.mul (.num 2 1) (.var 0))) (.sqrt (.div (.mul (.mul (.add (.num 1 1) (.var 0)) (.var 1)) (.add (.add (.num 2 1) (.mul (.num 3 1) (.var 1))) (.pow (.var 1) 2))) (.var 0)))) (.add (.add (.add (.num 6 1) (.mul (.num 13 1) (.var 1))) (.mul (.num 9 1) (.pow (.var 1) 2))) (.mul (.num 2 1) (.pow (.var 1) 3))))))),
  .neg (.mul (.mul (.mul (.sqrt (.num 2 1)) (.var 1)) (.sqrt (.div (.mul (.add (.num 1 1) (.mul (.num 2 1) (.var 0))) (.pow (.add (.num 1 1) (.mul (.num 2 1) (.var 1))) 2)) (.mul (.mul (.mul (.mul (.pow (.add (.num 1 1) (.var 0)) 5) (.pow (.var 1) 4)) (.pow (.add (.num 1 1) (.var 1)) 3)) (.add (.num 5 1) (.mul (.num 2 1) (.var 1)))) (.pow (.add (.add (.num 6 1) (.mul (.num 7 1) (.var 1))) (.mul (.num 2 1) (.pow (.var 1) 2))) 6))))) (.add (.add (.add (.add (.add (.add (.add (.mul (.num 2 1) (.sqrt (.div (.mul (.mul (.mul (.mul (.var 0) (.pow (.add (.num 1 1) (.var 0)) 4)) (.pow (.var 1) 4)) (.pow (.add (.num 2 1) (.var 1)) 3)) (.pow (.add (.add (.num 3 1) (.mul (.num 5 1) (.var 1))) (.mul (.num 2 1) (.pow (.var 1) 2))) 4)) (.mul (.add (.num 1 1) (.mul (.num 2 1) (.var 0))) (.add (.num 5 1) (.mul (.num 2 1) (.var 1))))))) (.div (.mul (.mul (.mul (.mul (.mul (.num 9 1) (.pow (.add (.num 1 1) (.var 0)) 2)) (.pow (.var 1) 2)) (.add (.num 1 1) (.var 1))) (.pow (.add (.add (.num 6 1) (.mul (.num 7 1) (.var 1))) (.mul (.num 2 1) (.pow (.var 1) 2))) 2)) (.sqrt (.div (.var 0) (.add (.add (.num 10 1) (.mul (.num 9 1) (.var 1))) (.mul (.num 2 1) (.pow (.var 1) 2)))))) (.hpow (.add (.num 1 1) (.mul (.num 2 1) (.var 0))) 1))) (.div (.mul (.mul (.mul (.mul (.mul (.num 2 1) (.pow (.add (.num 1 1) (.var 0)) 2)) (.pow (.var 1) 2)) (.pow (.add (.num 1 1) (.var 1)) 2)) (.pow (.add (.add (.num 6 1) (.mul (.num 7 1) (.var 1))) (.mul (.num 2 1) (.pow (.var 1) 2))) 2)) (.sqrt (.div (.var 0) (.add (.add (.num 10 1) (.mul (.num 9 1) (.var 1))) (.mul (.num 2 1) (.pow (.var 1) 2)))))) (.hpow (.add (.num 1 1) (.mul (.num 2 1) (.var 0))) 1))) (.div (.mul (.mul (.mul (.mul (.mul (.num 30 1) (.pow (.add (.num 1 1) (.var 0)) 2)) (.var 1)) (.add (.num 1 1) (.var 1))) (.pow (.add (.add (.num 6 1) (.mul (.num 7 1) (.var 1))) (.mul (.num 2 1) (.pow (.var 1) 2))) 2)) (.sqrt (.div (.var 0) (.add (.add (.num 10 1) (.mul (.num 9 1) (.var 1))) (.mul (.num 2 1) (.pow (.var 1) 2)))))) (.mul (.hpow (.add (.num 1 1) (.mul (.num 2 1) (.var 0))) 1) (.add (.num 1 1) (.mul (.num 2 1) (.var 1)))))) (.div (.mul (.mul (.mul (.mul (.mul (.num 36 1) (.pow (.add (.num 1 1) (.var 0)) 2)) (.pow (.var 1) 2)) (.add (.num 1 1) (.var 1))) (.pow (.add (.add (.num 6 1) (.mul (.num 7 1) (.var 1))) (.mul (.num 2 1) (.pow (.var 1) 2))) 2)) (.sqrt (.div (.var 0) (.add (.add (.num 10 1) (.mul (.num 9 1) (.var 1))) (.mul (.num 2 1) (.pow (.var 1) 2)))))) (.mul (.hpow (.add (.num 1 1) (.mul (.num 2 1) (.var 0))) 1) (.add (.num 1 1) (.mul (.num 2 1) (.var 1)))))) (.mul (.mul (.mul (.mul (.mul (.num 9 1) (.pow (.add (.num 1 1) (.var 0)) 2)) (.pow (.var 1) 2)) (.add (.num 1 1) (.var 1))) (.pow (.add (.add (.num 6 1) (.mul (.num 7 1) (.var 1))) (.mul (.num 2 1) (.pow (.var 1) 2))) 2)) (.sqrt (.div (.var 0) (.mul (.add (.num 1 1) (.mul (.num 2 1) (.var 0))) (.add (.add (.num 10 1) (.mul (.num 9 1) (.var 1))) (.mul (.num 2 1) (.pow (.var 1) 2)))))))) (.div (.mul (.mul (.mul (.mul (.mul (.num 30 1) (.pow (.add (.num 1 1) (.var 0)) 2)) (.var 1)) (.add (.num 1 1) (.var 1))) (.pow (.add (.add (.num 6 1) (.mul (.num 7 1) (.var 1))) (.mul (.num 2 1) (.pow (.var 1) 2))) 2)) (.sqrt (.div (.var 0) (.mul (.add (.num 1 1) (.mul (.num 2 1) (.var 0))) (.add (.add (.num 10 1) (.mul (.num 9 1) (.var 1))) (.mul (.num 2 1) (.pow (.var 1) 2))))))) (.add (.num 1 1) (.mul (.num 2 1) (.var 1))))) (.div (.mul (.mul (.mul (.mul (.mul (.num 36 1) (.pow (.add (.num 1 1) (.var 0)) 2)) (.pow (.var 1) 2)) (.add (.num 1 1) (.var 1))) (.pow (.add (.add (.num 6 1) (.mul (.num 7 1) (.var 1))) (.mul (.num 2 1) (.pow (.var 1) 2))) 2)) (.sqrt (.div (.var 0) (.mul (.add (.num 1 1) (.mul (.num 2 1) (.var 0))) (.add (.add (.num 10 1) (.mul (.num 9 1) (.var 1))) (.mul (.num 2 1) (.pow (.var 1) 2))))))) (.add (.num 1 1) (.mul (.num 2 1) (.var 1)))))),
  .neg (.mul (.mul (.sqrt (.num 2 1)) (.sqrt (.add (.num 1 1) (.var 1)))) (.add (.add (.add (.sub (.sub (.add (.add (.add (.add (.div (.mul (.mul (.mul (.num 6 1) (.add (.neg (.num 1 1)) (.var 1))) (.add (.num 1 1) (.mul (.num 2 1) (.var 1)))) (.sqrt (.div (.var 0) (.mul (.add (.num 1 1) (.var 0)) (.add (.num 5 1) (.mul (.num 2 1) (.var 1))))))) (.hpow (.add (.add (.num 6 1) (.mul (.num 7 1) (.var 1))) (.mul (.num 2 1) (.pow (.var 1) 2))) 1)) (.div (.mul (.mul (.mul (.num 6 1) (.add (.neg (.num 1 1)) (.var 1))) (.add (.num 1 1) (.mul (.num 2 1) (.var 1)))) (.sqrt (.div (.var 0) (.mul (.add (.num 1 1) (.var 0)) (.add (.num 5 1) (.mul (.num 2 1) (.var 1))))))) (.mul (.add (.num 1 1) (.mul (.num 2 1) (.var 0))) (.hpow (.add (.add (.num 6 1) (.mul (.num 7 1) (.var 1))) (.mul (.num 2 1) (.pow (.var 1) 2))) 1)))) (.div (.mul (.mul (.mul (.num 3 1) (.add (.num 1 1) (.mul (.num 2 1) (.var 1)))) (.sqrt (.div (.var 0) (.mul (.add (.num 1 1) (.var 0)) (.add (.num 5 1) (.mul (.num 2 1) (.var 1))))))) (.add (.neg (.num 2 1)) (.mul (.num 3 1) (.var 1)))) (.mul (.add (.num 1 1) (.var 1)) (.hpow (.add (.add (.num 6 1) (.mul (.num 7 1) (.var 1))) (.mul (.num 2 1) (.pow (.var 1) 2))) 1)))) (.div (.mul (.mul (.mul (.num 3 1) (.add (.num 1 1) (.mul (.num 2 1) (.var 1)))) (.sqrt (.div (.var 0) (.mul (.add (.num 1 1) (.var 0)) (.add (.num 5 1) (.mul (.num 2 1) (.var 1))))))) (.add (.neg (.num 2 1)) (.mul (.num 3 1) (.var 1)))) (.mul (.mul (.add (.num 1 1) (.mul (.num 2 1) (.var 0))) (.add (.num 1 1) (.var 1))) (.hpow (.add (.add (.num 6 1) (.mul (.num 7 1) (.var 1))) (.mul (.num 2 1) (.pow (.var 1) 2))) 1)))) (.div (.mul (.mul (.add (.neg (.num 2 1)) (.var 1)) (.add (.num 1 1) (.mul (.num 2 1) (.var 1)))) (.sqrt (.div (.var 0) (.mul (.add (.num 1 1) (.var 0)) (.add (.add (.num 15 1) (.mul (.num 16 1) (.var 1))) (.mul (.num 4 1) (.pow (.var 1) 2))))))) (.hpow (.add (.num 2 1) (.var 1)) 1))) (.mul (.add (.num 1 1) (.mul (.num 2 1) (.var 1))) (.sqrt (.div (.var 0) (.mul (.add (.num 1 1) (.var 0)) (.add (.add (.add (.num 30 1) (.mul (.num 47 1) (.var 1))) (.mul (.num 24 1) (.pow (.var 1) 2))) (.mul (.num 4 1) (.pow (.var 1) 3)))))))) (.div (.mul (.add (.num 1 1) (.mul (.num 2 1) (.var 1))) (.sqrt (.div (.var 0) (.mul (.add (.num 1 1) (.var 0)) (.add (.add (.add (.num 30 1) (.mul (.num 47 1) (.var 1))) (.mul (.num 24 1) (.pow (.var 1) 2))) (.mul (.num 4 1) (.pow (.var 1) 3))))))) (.add (.num 1 1) (.mul (.num 2 1) (.var 0))))) (.div (.mul (.mul (.add (.neg (.num 2 1)) (.var 1)) (.add (.num 1 1) (.mul (.num 2 1) (.var 1)))) (.sqrt (.div (.var 0) (.mul (.add (.num 1 1) (.var 0)) (.add (.add (.add (.num 30 1) (.mul (.num 47 1) (.var 1))) (.mul (.num 24 1) (.pow (.var 1) 2))) (.mul (.num 4 1) (.pow (.var 1) 3))))))) (.mul (.add (.num 1 1) (.mul (.num 2 1) (.var 0))) (.add (.num 2 1) (.var 1))))) (.div (.mul (.mul (.num 6 1) (.add (.neg (.num 1 1)) (.mul (.num 2 1) (.var 1)))) (.sqrt (.div (.var 0) (.mul (.add (.num 1 1) (.var 0)) (.add (.add (.add (.num 30 1) (.mul (.num 47 1) (.var 1))) (.mul (.num 24 1) (.pow (.var 1) 2))) (.mul (.num 4 1) (.pow (.var 1) 3))))))) (.mul (.add (.num 1 1) (.var 1)) (.add (.add (.num 6 1) (.mul (.num 7 1) (.var 1))) (.mul (.num 2 1) (.pow (.var 1) 2)))))) (.div (.mul (.mul (.num 6 1) (.add (.neg (.num 1 1)) (.mul (.num 2 1) (.var 1)))) (.sqrt (.div (.var 0) (.mul (.add (.num 1 1) (.var 0)) (.add (.add (.add (.num 30 1) (.mul (.num 47 1) (.var 1))) (.mul (.num 24 1) (.pow (.var 1) 2))) (.mul (.num 4 1) (.pow (.var 1) 3))))))) (.mul (.add (.num 1 1) (.mul (.num 2 1) (.var 0))) (.add (.add (.add (.num 6 1) (.mul (.num 13 1) (.var 1))) (.mul (.num 9 1) (.pow (.var 1) 2))) (.mul (.num 2 1) (.pow (.var 1) 3))))))),
  .div (.mul (.sqrt (.div (.mul (.add (.num 1 1) (.var 1)) (.add (.num 1 1) (.mul (.num 2 1) (.var 1)))) (.add (.num 1 1) (.mul (.num 2 1) (.var 0))))) (.sub (.sub (.sub (.sub (.sub (.sub (.sub (.sub (.sub (.mul (.neg (.num 60 1)) (.sqrt (.div (.mul (.mul (.mul (.var 0) (.add (.num 1 1) (.var 0))) (.var 1)) (.add (.num 5 1) (.mul (.num 2 1) (.var 1)))) (.mul (.mul (.add (.num 1 1) (.mul (.num 2 1) (.var 0))) (.add (.num 1 1) (.mul (.num 2 1) (.var 1)))) (.add (.add (.num 6 1) (.mul (.num 5 1) (.var 1))) (.pow (.var 1) 2)))))) (.mul (.num 60 1) (.sqrt (.div (.mul (.mul (.mul (.mul (.var 0) (.add (.num 1 1) (.var 0))) (.add (.num 1 1) (.mul (.num 2 1) (.var 0)))) (.var 1)) (.add (.num 5 1) (.mul (.num 2 1) (.var 1)))) (.mul (.add (.num 1 1) (.mul (.num 2 1) (.var 1))) (.add (.add (.num 6 1) (.mul (.num 5 1) (.var 1))) (.pow (.var 1) 2))))))) (.mul (.num 48 1) (.sqrt (.div (.mul (.mul (.mul (.mul (.var 0) (.add (.num 1 1) (.var 0))) (.var 1)) (.add (.num 1 1) (.mul (.num 2 1) (.var 1)))) (.add (.num 5 1) (.mul (.num 2 1) (.var 1)))) (.mul (.add (.num 1 1) (.mul (.num 2 1) (.var 0))) (.add (.add (.num 6 1) (.mul (.num 5 1) (.var 1))) (.pow (.var 1) 2))))))) (.mul (.mul (.num 36 1) (.add (.num 1 1) (.var 1))) (.sqrt (.div (.mul (.mul (.mul (.mul (.var 0) (.add (.num 1 1) (.var 0))) (.var 1)) (.add (.num 1 1) (.mul (.num 2 1) (.var 1)))) (.add (.num 5 1) (.mul (.num 2 1) (.var 1)))) (.mul (.add (.num 1 1) (.mul (.num 2 1) (.var 0))) (.add (.add (.num 6 1) (.mul (.num 5 1) (.var 1))) (.pow (.var 1) 2))))))) (.mul (.mul (.mul (.num 8 1) (.add (.num 1 1) (.var 1))) (.add (.num 3 1) (.mul (.num 2 1) (.var 1)))) (.sqrt (.div (.mul (.mul (.mul (.mul (.var 0) (.add (.num 1 1) (.var 0))) (.var 1)) (.add (.num 1 1) (.mul (.num 2 1) (.var 1)))) (.add (.num 5 1) (.mul (.num 2 1) (.var 1)))) (.mul (.add (.num 1 1) (.mul (.num 2 1) (.var 0))) (.add (.add (.num 6 1) (.mul (.num 5 1) (.var 1))) (.pow (.var 1) 2))))))) (.mul (.mul (.num 36 1) (.add (.num 1 1) (.var 1))) (.sqrt (.div (.mul (.mul (.mul (.mul (.mul (.var 0) (.add (.num 1 1) (.var 0))) (.add (.num 1 1) (.mul (.num 2 1) (.var 0)))) (.var 1)) (.add (.num 1 1) (.mul (.num 2 1) (.var 1)))) (.add (.num 5 1) (.mul (.num 2 1) (.var 1)))) (.add (.add (.num 6 1) (.mul (.num 5 1) (.var 1))) (.pow (.var 1) 2)))))) (.mul (.mul (.mul (.num 8 1) (.add (.num 1 1) (.var 1))) (.add (.num 3 1) (.mul (.num 2 1) (.var 1)))) (.sqrt (.div (.mul (.mul (.mul (.mul (.mul (.var 0) (.add (.num 1 1) (.var 0))) (.add (.num 1 1) (.mul (.num 2 1) (.var 0)))) (.var 1)) (.add (.num 1 1) (.mul (.num 2 1) (.var 1)))) (.add (.num 5 1) (.mul (.num 2 1) (.var 1)))) (.add (.add (.num 6 1) (.mul (.num 5 1) (.var 1))) (.pow (.var 1) 2)))))) (.mul (.num 48 1) (.sqrt (.div (.mul (.mul (.mul (.mul (.var 0) (.add (.add (.num 1 1) (.mul (.num 3 1) (.var 0))) (.mul (.num 2 1) (.pow (.var 0) 2)))) (.var 1)) (.add (.num 1 1) (.mul (.num 2 1) (.var 1)))) (.add (.num 5 1) (.mul (.num 2 1) (.var 1)))) (.add (.add (.num 6 1) (.mul (.num 5 1) (.var 1))) (.pow (.var 1) 2)))))) (.mul (.mul (.num 2 1) (.add (.add (.num 3 1) (.mul (.num 5 1) (.var 1))) (.mul (.num 2 1) (.pow (.var 1) 2)))) (.sqrt (.div (.mul (.mul (.mul (.mul (.mul (.var 0) (.add (.num 1 1) (.var 0))) (.add (.num 1 1) (.mul (.num 2 1) (.var 0)))) (.var 1)) (.add (.num 1 1) (.mul (.num 2 1) (.var 1)))) (.add (.add (.num 10 1) (.mul (.num 9 1) (.var 1))) (.mul (.num 2 1) (.pow (.var 1) 2)))) (.add (.num 3 1) (.var 1)))))) (.mul (.mul (.num 2 1) (.add (.add (.num 3 1) (.mul (.num 5 1) (.var 1))) (.mul (.num 2 1) (.pow (.var 1) 2)))) (.sqrt (.div (.mul (.mul (.mul (.var 0) (.add (.num 1 1) (.var 0))) (.var 1)) (.add (.add (.add (.num 10 1) (.mul (.num 29 1) (.var 1))) (.mul (.num 20 1) (.pow (.var 1) 2))) (.mul (.num 4 1) (.pow (.var 1) 3)))) (.mul (.add (.num 1 1) (.mul (.num 2 1) (.var 0))) (.add (.num 3 1) (.var 1)))))))) (.mul (.mul (.mul (.num 2 1) (.add (.num 1 1) (.var 0))) (.hpow (.add (.num 5 1) (.mul (.num 2 1) (.var 1))) 1)) (.add (.add (.add (.num 6 1) (.mul (.num 13 1) (.var 1))) (.mul (.num 9 1) (.pow (.var 1) 2))) (.mul (.num 2 1) (.pow (.var 1) 3)))),
  .sqrt (.div (.add (.neg (.num 1 1)) (.pow (.var 1) 2)) (.mul (.add (.var 0) (.mul (.num 2 1) (.pow (.var 0) 2))) (.pow (.var 1) 2))),
  .div (.sqrt (.div (.add (.neg (.num 1 1)) (.mul (.num 2 1) (.var 1))) (.mul (.add (.var 0) (.mul (.num 2 1) (.pow (.var 0) 2))) (.add (.num 1 1) (.mul (.num 2 1) (.var 1)))))) (.var 1),
  .div (.add (.add (.neg (.num 1 1)) (.var 1)) (.pow (.var 1) 2)) (.mul (.mul (.sqrt (.mul (.var 0) (.add (.num 1 1) (.mul (.num 2 1) (.var 0))))) (.var 1)) (.add (.num 1 1) (.var 1))),
  .div (.num 1 1) (.mul (.sqrt (.mul (.var 0) (.add (.num 1 1) (.mul (.num 2 1) (.var 0))))) (.add (.num 1 1) (.var 1))),
  .mul (.sqrt (.add (.num 1 1) (.var 1))) (.add (.add (.mul (.num 2 1) (.sqrt (.div (.mul (.var 1) (.pow (.add (.num 1 1) (.mul (.num 2 1) (.var 1))) 2)) (.mul (.mul (.pow (.add (.num 1 1) (.var 1)) 3) (.add (.num 2 1) (.var 1))) (.pow (.add (.num 3 1) (.mul (.num 2 1) (.var 1))) 2))))) (.div (.mul (.add (.num 1 1) (.mul (.num 2 1) (.var 1))) (.sqrt (.div (.var 1) (.add (.add (.num 2 1) (.mul (.num 3 1) (.var 1))) (.pow (.var 1) 2))))) (.add (.num 3 1) (.mul (.num 2 1) (.var 1))))) (.div (.mul (.num 3 1) (.sqrt (.div (.var 1) (.add (.add (.num 2 1) (.mul (.num 3 1) (.var 1))) (.pow (.var 1) 2))))) (.add (.add (.num 3 1) (.mul (.num 5 1) (.var 1))) (.mul (.num 2 1) (.pow (.var 1) 2))))),
  .div (.add (.mul (.neg (.num 2 1)) (.sqrt (.mul (.mul (.add (.num 1 1) (.mul (.num 2 1) (.var 0))) (.var 1)) (.add (.num 1 1) (.mul (.num 2 1) (.var 1)))))) (.mul (.add (.neg (.num 1 1)) (.mul (.num 2 1) (.var 1))) (.sqrt (.div (.add (.var 1) (.mul (.mul (.num 2 1) (.var 0)) (.var 1))) (.add (.num 1 1) (.mul (.num 2 1) (.var 1))))))) (.mul (.mul (.add (.num 1 1) (.mul (.num 2 1) (.var 0))) (.add (.num 1 1) (.var 1))) (.sqrt (.mul (.mul (.var 0) (.var 1)) (.add (.num 3 1) (.mul (.num 2 1) (.var 1)))))),
  .div (.add (.add (.sqrt (.div (.mul (.var 1) (.add (.num 1 1) (.var 1))) (.add (.num 2 1) (.var 1)))) (.mul (.num 5 1) (.sqrt (.div (.var 1) (.add (.add (.num 2 1) (.mul (.num 3 1) (.var 1))) (.pow (.var 1) 2)))))) (.mul (.mul (.num 2 1) (.var 1)) (.add (.sqrt (.div (.mul (.var 1) (.add (.num 1 1) (.var 1))) (.add (.num 2 1) (.var 1)))) (.mul (.num 2 1) (.sqrt (.div (.var 1) (.add (.add (.num 2 1) (.mul (.num 3 1) (.var 1))) (.pow (.var 1) 2)))))))) (.mul (.sqrt (.div (.mul (.var 0) (.add (.num 1 1) (.mul (.num 2 1) (.var 0)))) (.add (.num 1 1) (.var 1)))) (.add (.add (.num 3 1) (.mul (.num 5 1) (.var 1))) (.mul (.num 2 1) (.pow (.var 1) 2)))),
  .div (.add (.sub (.sqrt (.div (.mul (.add (.neg (.num 1 1)) (.mul (.num 2 1) (.var 0))) (.add (.neg (.num 1 1)) (.var 1))) (.mul (.add (.var 0) (.mul (.num 2 1) (.pow (.var 0) 2))) (.var 1)))) (.sqrt (.div (.sub (.var 0) (.mul (.var 0) (.var 1))) (.sub (.var 1) (.mul (.mul (.num 4 1) (.pow (.var 0) 2)) (.var 1)))))) (.mul (.mul (.num 2 1) (.var 0)) (.sqrt (.div (.sub (.var 0) (.mul (.var 0) (.var 1))) (.sub (.var 1) (.mul (.mul (.num 4 1) (.pow (.var 0) 2)) (.var 1))))))) (.sqrt (.div (.mul (.add (.num 1 1) (.var 0)) (.var 1)) (.add (.num 1 1) (.var 1)))),
  .div (.add (.add (.neg (.sqrt (.div (.mul (.var 0) (.add (.neg (.num 1 1)) (.mul (.num 2 1) (.var 1)))) (.mul (.mul (.add (.neg (.num 1 1)) (.mul (.num 4 1) (.pow (.var 0) 2))) (.var 1)) (.add (.num 1 1) (.var 1)))))) (.mul (.mul (.num 2 1) (.var 0)) (.sqrt (.div (.mul (.var 0) (.add (.neg (.num 1 1)) (.mul (.num 2 1) (.var 1)))) (.mul (.mul (.add (.neg (.num 1 1)) (.mul (.num 4 1) (.pow (.var 0) 2))) (.var 1)) (.add (.num 1 1) (.var 1))))))) (.sqrt (.div (.mul (.add (.neg (.num 1 1)) (.mul (.num 2 1) (.var 0))) (.add (.neg (.num 1 1)) (.mul (.num 2 1) (.var 1)))) (.mul (.mul (.var 0) (.add (.num 1 1) (.mul (.num 2 1) (.var 0)))) (.add (.var 1) (.pow (.var 1) 2)))))) (.sqrt (.div (.mul (.mul (.add (.num 1 1) (.var 0)) (.var 1)) (.add (.num 1 1) (.mul (.num 2 1) (.var 1)))) (.add (.num 1 1) (.var 1)))),
  .div (.num 1 1) (.sqrt (.div (.mul (.mul (.add (.num 1 1) (.var 0)) (.add (.num 1 1) (.mul (.num 2 1) (.var 0)))) (.pow (.var 1) 2)) (.add (.neg (.num 1 1)) (.pow (.var 1) 2)))),
  .div (.num 1 1) (.sqrt (.div (.mul (.mul (.mul (.add (.num 1 1) (.var 0)) (.add (.num 1 1) (.mul (.num 2 1) (.var 0)))) (.pow (.var 1) 2)) (.add (.num 1 1) (.mul (.num 2 1) (.var 1)))) (.add (.neg (.num 1 1)) (.mul (.num 2 1) (.var 1))))),
  .neg (.div (.add (.sqrt (.add (.add (.sub (.neg (.num 1 1)) (.div (.num 1 1) (.var 0))) (.mul (.num 4 1) (.var 0))) (.mul (.num 4 1) (.pow (.var 0) 2)))) (.sqrt (.mul (.var 0) (.add (.add (.sub (.neg (.num 1 1)) (.var 0)) (.mul (.num 4 1) (.pow (.var 0) 2))) (.mul (.num 4 1) (.pow (.var 0) 3)))))) (.mul (.mul (.add (.num 1 1) (.var 0)) (.add (.num 1 1) (.mul (.num 2 1) (.var 0)))) (.var 1))),
  .add (.add (.add (.div (.mul (.add (.neg (.num 1 1)) (.mul (.num 2 1) (.var 0))) (.add (.neg (.num 1 1)) (.var 1))) (.mul (.sqrt (.div (.mul (.add (.num 1 1) (.var 0)) (.add (.neg (.num 1 1)) (.mul (.num 4 1) (.pow (.var 0) 2)))) (.var 0))) (.add (.num 1 1) (.var 1)))) (.div (.mul (.sqrt (.add (.neg (.num 1 1)) (.mul (.num 2 1) (.var 0)))) (.add (.neg (.num 1 1)) (.var 1))) (.mul (.sqrt (.add (.add (.var 0) (.mul (.num 3 1) (.pow (.var 0) 2))) (.mul (.num 2 1) (.pow (.var 0) 3)))) (.add (.num 1 1) (.var 1))))) (.div (.mul (.mul (.var 0) (.add (.neg (.num 1 1)) (.mul (.num 2 1) (.var 0)))) (.add (.neg (.num 1 1)) (.mul (.num 2 1) (.var 1)))) (.mul (.mul (.sqrt (.mul (.mul (.var 0) (.add (.num 1 1) (.var 0))) (.add (.neg (.num 1 1)) (.mul (.num 4 1) (.pow (.var 0) 2))))) (.var 1)) (.add (.num 1 1) (.var 1))))) (.div (.add (.neg (.num 1 1)) (.mul (.num 2 1) (.var 1))) (.mul (.sqrt (.div (.mul (.mul (.var 0) (.add (.num 1 1) (.var 0))) (.add (.num 1 1) (.mul (.num 2 1) (.var 0)))) (.add (.neg (.num 1 1)) (.mul (.num 2 1) (.var 0))))) (.add (.var 1) (.pow (.var 1) 2)))),
  .div (.add (.add (.neg (.sqrt (.div (.mul (.add (.add (.num 1 1) (.mul (.num 3 1) (.var 0))) (.mul (.num 2 1) (.pow (.var 0) 2))) (.add (.num 1 1) (.var 1))) (.var 0)))) (.sqrt (.mul (.mul (.var 0) (.add (.add (.num 1 1) (.mul (.num 3 1) (.var 0))) (.mul (.num 2 1) (.pow (.var 0) 2)))) (.add (.num 1 1) (.var 1))))) (.mul (.mul (.num 2 1) (.var 0)) (.sqrt (.mul (.mul (.var 0) (.add (.add (.num 1 1) (.mul (.num 3 1) (.var 0))) (.mul (.num 2 1) (.pow (.var 0) 2)))) (.add (.num 1 1) (.var 1)))))) (.mul (.mul (.mul (.add (.num 1 1) (.var 0)) (.sqrt (.add (.neg (.num 1 1)) (.mul (.num 2 1) (.var 0))))) (.add (.num 1 1) (.mul (.num 2 1) (.var 0)))) (.hpow (.add (.num 1 1) (.var 1)) 1)),
  .div (.add (.add (.neg (.sqrt (.div (.add (.num 1 1) (.var 0)) (.add (.add (.add (.num 1 1) (.mul (.num 2 1) (.var 0))) (.var 1)) (.mul (.mul (.num 2 1) (.var 0)) (.var 1)))))) (.mul (.var 1) (.add (.neg (.sqrt (.div (.mul (.add (.num 1 1) (.var 0)) (.add (.num 1 1) (.var 1))) (.add (.num 1 1) (.mul (.num 2 1) (.var 0)))))) (.sqrt (.div (.add (.num 1 1) (.var 0)) (.add (.add (.add (.num 1 1) (.mul (.num 2 1) (.var 0))) (.var 1)) (.mul (.mul (.num 2 1) (.var 0)) (.var 1)))))))) (.mul (.pow (.var 1) 2) (.add (.sqrt (.div (.mul (.add (.num 1 1) (.var 0)) (.add (.num 1 1) (.var 1))) (.add (.num 1 1) (.mul (.num 2 1) (.var 0))))) (.mul (.num 2 1) (.sqrt (.div (.add (.num 1 1) (.var 0)) (.add (.add (.add (.num 1 1) (.mul (.num 2 1) (.var 0))) (.var 1)) (.mul (.mul (.num 2 1) (.var 0)) (.var 1))))))))) (.mul (.mul (.add (.num 1 1) (.var 0)) (.var 1)) (.hpow (.add (.num 1 1) (.var 1)) 1)),
  .div (.num 1 1) (.mul (.sqrt (.add (.add (.num 1 1) (.mul (.num 3 1) (.var 0))) (.mul (.num 2 1) (.pow (.var 0) 2)))) (.add (.num 1 1) (.var 1))),
  .mul (.sqrt (.add (.num 1 1) (.var 1))) (.add (.add (.add (.add (.add (.neg (.div (.num 1 1) (.sqrt (.div (.mul (.mul (.mul (.mul (.var 0) (.add (.num 1 1) (.var 0))) (.add (.num 1 1) (.mul (.num 2 1) (.var 0)))) (.add (.num 1 1) (.var 1))) (.add (.num 3 1) (.mul (.num 2 1) (.var 1)))) (.mul (.add (.neg (.num 1 1)) (.mul (.num 2 1) (.var 0))) (.add (.num 1 1) (.mul (.num 2 1) (.var 1)))))))) (.div (.sub (.var 0) (.mul (.num 2 1) (.pow (.var 0) 2))) (.sqrt (.div (.mul (.mul (.mul (.mul (.var 0) (.add (.num 1 1) (.var 0))) (.add (.neg (.num 1 1)) (.mul (.num 4 1) (.pow (.var 0) 2)))) (.add (.num 1 1) (.var 1))) (.add (.num 3 1) (.mul (.num 2 1) (.var 1)))) (.add (.num 1 1) (.mul (.num 2 1) (.var 1))))))) (.div (.add (.neg (.num 1 1)) (.var 1)) (.sqrt (.div (.mul (.mul (.mul (.mul (.var 0) (.add (.num 1 1) (.var 0))) (.add (.num 1 1) (.mul (.num 2 1) (.var 0)))) (.pow (.add (.num 1 1) (.var 1)) 3)) (.add (.num 3 1) (.mul (.num 2 1) (.var 1)))) (.mul (.add (.neg (.num 1 1)) (.mul (.num 2 1) (.var 0))) (.add (.num 1 1) (.mul (.num 2 1) (.var 1)))))))) (.div (.mul (.add (.neg (.num 1 1)) (.mul (.num 2 1) (.var 0))) (.add (.neg (.num 1 1)) (.var 1))) (.sqrt (.div (.mul (.mul (.mul (.add (.num 1 1) (.var 0)) (.add (.neg (.num 1 1)) (.mul (.num 4 1) (.pow (.var 0) 2)))) (.pow (.add (.num 1 1) (.var 1)) 3)) (.add (.num 3 1) (.mul (.num 2 1) (.var 1)))) (.add (.var 0) (.mul (.mul (.num 2 1) (.var 0)) (.var 1))))))) (.sqrt (.div (.mul (.add (.neg (.num 1 1)) (.mul (.num 2 1) (.var 0))) (.pow (.sub (.num 1 1) (.mul (.num 2 1) (.var 1))) 2)) (.mul (.mul (.mul (.var 0) (.add (.add (.num 1 1) (.mul (.num 3 1) (.var 0))) (.mul (.num 2 1) (.pow (.var 0) 2)))) (.pow (.add (.num 1 1) (.var 1)) 3)) (.add (.add (.num 3 1) (.mul (.num 8 1) (.var 1))) (.mul (.num 4 1) (.pow (.var 1) 2))))))) (.mul (.add (.neg (.num 1 1)) (.mul (.num 2 1) (.var 0))) (.sqrt (.div (.mul (.var 0) (.pow (.sub (.num 1 1) (.mul (.num 2 1) (.var 1))) 2)) (.mul (.mul (.add (.add (.sub (.neg (.num 1 1)) (.var 0)) (.mul (.num 4 1) (.pow (.var 0) 2))) (.mul (.num 4 1) (.pow (.var 0) 3))) (.pow (.add (.num 1 1) (.var 1)) 3)) (.add (.add (.num 3 1) (.mul (.num 8 1) (.var 1))) (.mul (.num 4 1) (.pow (.var 1) 2)))))))),
  .div (.add (.add (.add (.add (.add (.sub (.mul (.neg (.num 6 1)) (.sqrt (.div (.mul (.mul (.add (.num 1 1) (.mul (.num 2 1) (.var 0))) (.var 1)) (.add (.num 3 1) (.mul (.num 2 1) (.var 1)))) (.mul (.var 0) (.add (.num 2 1) (.var 1)))))) (.mul (.mul (.num 2 1) (.pow (.var 1) 2)) (.sqrt (.div (.mul (.mul (.add (.num 1 1) (.mul (.num 2 1) (.var 0))) (.var 1)) (.add (.num 3 1) (.mul (.num 2 1) (.var 1)))) (.mul (.var 0) (.add (.num 2 1) (.var 1))))))) (.mul (.num 6 1) (.sqrt (.div (.mul (.mul (.mul (.var 0) (.add (.num 1 1) (.mul (.num 2 1) (.var 0)))) (.var 1)) (.add (.num 3 1) (.mul (.num 2 1) (.var 1)))) (.add (.num 2 1) (.var 1)))))) (.mul (.num 12 1) (.sqrt (.div (.mul (.mul (.mul (.pow (.var 0) 3) (.add (.num 1 1) (.mul (.num 2 1) (.var 0)))) (.var 1)) (.add (.num 3 1) (.mul (.num 2 1) (.var 1)))) (.add (.num 2 1) (.var 1)))))) (.mul (.num 2 1) (.sqrt (.div (.mul (.mul (.mul (.var 0) (.add (.num 1 1) (.mul (.num 2 1) (.var 0)))) (.pow (.var 1) 5)) (.add (.num 3 1) (.mul (.num 2 1) (.var 1)))) (.add (.num 2 1) (.var 1)))))) (.mul (.num 4 1) (.sqrt (.div (.mul (.mul (.mul (.pow (.var 0) 3) (.add (.num 1 1) (.mul (.num 2 1) (.var 0)))) (.pow (.var 1) 5)) (.add (.num 3 1) (.mul (.num 2 1) (.var 1)))) (.add (.num 2 1) (.var 1)))))) (.mul (.mul (.num 7 1) (.var 1)) (.add (.add (.neg (.sqrt (.div (.mul (.mul (.add (.num 1 1) (.mul (.num 2 1) (.var 0))) (.var 1)) (.add (.num 3 1) (.mul (.num 2 1) (.var 1)))) (.mul (.var 0) (.add (.num 2 1) (.var 1)))))) (.sqrt (.div (.mul (.mul (.mul (.var 0) (.add (.num 1 1) (.mul (.num 2 1) (.var 0)))) (.var 1)) (.add (.num 3 1) (.mul (.num 2 1) (.var 1)))) (.add (.num 2 1) (.var 1))))) (.mul (.num 2 1) (.sqrt (.div (.mul (.mul (.mul (.pow (.var 0) 3) (.add (.num 1 1) (.mul (.num 2 1) (.var 0)))) (.var 1)) (.add (.num 3 1) (.mul (.num 2 1) (.var 1)))) (.add (.num 2 1) (.var 1)))))))) (.mul (.mul (.add (.num 1 1) (.mul (.num 2 1) (.var 0))) (.sqrt (.div (.add (.add (.neg (.num 1 1)) (.var 0)) (.mul (.num 2 1) (.pow (.var 0) 2))) (.add (.num 1 1) (.var 1))))) (.hpow (.add (.add (.num 3 1) (.mul (.num 5 1) (.var 1))) (.mul (.num 2 1) (.pow (.var 1) 2))) 1)),
  .neg (.div (.add (.sub (.sqrt (.div (.mul (.add (.num 1 1) (.var 0)) (.add (.num 1 1) (.var 1))) (.add (.num 1 1) (.mul (.num 2 1) (.var 1))))) (.mul (.mul (.num 2 1) (.var 1)) (.sqrt (.div (.mul (.add (.num 1 1) (.var 0)) (.add (.num 1 1) (.var 1))) (.add (.num 1 1) (.mul (.num 2 1) (.var 1))))))) (.mul (.num 2 1) (.sqrt (.mul (.add (.num 1 1) (.var 0)) (.add (.add (.num 1 1) (.mul (.num 3 1) (.var 1))) (.mul (.num 2 1) (.pow (.var 1) 2))))))) (.mul (.mul (.add (.num 1 1) (.var 0)) (.add (.num 1 1) (.var 1))) (.sqrt (.mul (.mul (.add (.num 1 1) (.mul (.num 2 1) (.var 0))) (.add (.num 1 1) (.var 1))) (.add (.num 3 1) (.mul (.num 2 1) (.var 1))))))),
  .div (.sqrt (.div (.mul (.var 1) (.add (.num 2 1) (.var 1))) (.add (.add (.num 1 1) (.mul (.num 3 1) (.var 0))) (.mul (.num 2 1) (.pow (.var 0) 2))))) (.add (.num 1 1) (.var 1)),
  .div (.add (.add (.sqrt (.div (.mul (.mul (.var 0) (.add (.num 1 1) (.mul (.num 2 1) (.var 0)))) (.add (.neg (.num 1 1)) (.var 1))) (.var 1))) (.sqrt (.div (.mul (.mul (.var 0) (.add (.num 1 1) (.mul (.num 2 1) (.var 0)))) (.add (.neg (.num 1 1)) (.var 1))) (.mul (.pow (.add (.num 1 1) (.var 0)) 2) (.var 1))))) (.sqrt (.div (.mul (.var 0) (.add (.neg (.num 1 1)) (.var 1))) (.mul (.pow (.add (.num 1 1) (.var 0)) 2) (.add (.var 1) (.mul (.mul (.num 2 1) (.var 0)) (.var 1))))))) (.sqrt (.div (.mul (.add (.add (.num 3 1) (.mul (.num 5 1) (.var 0))) (.mul (.num 2 1) (.pow (.var 0) 2))) (.var 1)) (.add (.num 1 1) (.var 1)))),
  .div (.add (.num 3 1) (.mul (.num 2 1) (.var 0))) (.sqrt (.div (.mul (.mul (.mul (.add (.num 1 1) (.mul (.num 2 1) (.var 0))) (.add (.add (.num 3 1) (.mul (.num 5 1) (.var 0))) (.mul (.num 2 1) (.pow (.var 0) 2)))) (.pow (.var 1) 2)) (.add (.num 1 1) (.mul (.num 2 1) (.var 1)))) (.mul (.var 0) (.add (.neg (.num 1 1)) (.mul (.num 2 1) (.var 1)))))),
  .neg (.div (.add (.num 3 1) (.mul (.num 2 1) (.var 0))) (.sqrt (.div (.mul (.mul (.add (.num 1 1) (.var 0)) (.add (.add (.num 3 1) (.mul (.num 8 1) (.var 0))) (.mul (.num 4 1) (.pow (.var 0) 2)))) (.pow (.var 1) 2)) (.var 0)))),
  .div (.mul (.mul (.add (.num 3 1) (.mul (.num 2 1) (.var 0))) (.sqrt (.div (.var 0) (.add (.add (.add (.num 3 1) (.mul (.num 11 1) (.var 0))) (.mul (.num 12 1) (.pow (.var 0) 2))) (.mul (.num 4 1) (.pow (.var 0) 3)))))) (.add (.add (.neg (.num 1 1)) (.var 1)) (.pow (.var 1) 2))) (.mul (.var 1) (.add (.num 1 1) (.var 1))),
  .div (.mul (.add (.num 3 1) (.mul (.num 2 1) (.var 0))) (.sqrt (.div (.var 0) (.add (.add (.add (.num 3 1) (.mul (.num 11 1) (.var 0))) (.mul (.num 12 1) (.pow (.var 0) 2))) (.mul (.num 4 1) (.pow (.var 0) 3)))))) (.add (.num 1 1) (.var 1)),
  .neg (.div (.sub (.sub (.add (.sub (.sub (.add (.add (.add (.add (.add (.sub (.mul (.add (.num 1 1) (.mul (.num 2 1) (.var 0))) (.sqrt (.div (.mul (.mul (.var 0) (.add (.num 1 1) (.var 0))) (.add (.num 1 1) (.mul (.num 2 1) (.var 1)))) (.add (.num 1 1) (.var 1))))) (.mul (.mul (.add (.num 1 1) (.mul (.num 2 1) (.var 0))) (.var 1)) (.sqrt (.div (.mul (.mul (.var 0) (.add (.num 1 1) (.var 0))) (.add (.num 1 1) (.mul (.num 2 1) (.var 1)))) (.add (.num 1 1) (.var 1)))))) (.sqrt (.div (.mul (.mul (.var 0) (.add (.num 1 1) (.var 1))) (.add (.num 1 1) (.mul (.num 2 1) (.var 1)))) (.add (.num 1 1) (.var 0))))) (.mul (.add (.num 1 1) (.mul (.num 2 1) (.var 0))) (.sqrt (.div (.mul (.mul (.var 0) (.add (.num 1 1) (.var 1))) (.add (.num 1 1) (.mul (.num 2 1) (.var 1)))) (.add (.num 1 1) (.var 0)))))) (.mul (.add (.num 1 1) (.mul (.num 2 1) (.var 0))) (.sqrt (.mul (.mul (.mul (.var 0) (.add (.num 1 1) (.var 0))) (.add (.num 1 1) (.var 1))) (.add (.num 1 1) (.mul (.num 2 1) (.var 1))))))) (.sqrt (.div (.add (.var 0) (.mul (.mul (.num 2 1) (.var 0)) (.var 1))) (.add (.add (.add (.num 1 1) (.var 0)) (.var 1)) (.mul (.var 0) (.var 1)))))) (.mul (.add (.num 1 1) (.mul (.num 2 1) (.var 0))) (.sqrt (.div (.add (.var 0) (.mul (.mul (.num 2 1) (.var 0)) (.var 1))) (.add (.add (.add (.num 1 1) (.var 0)) (.var 1)) (.mul (.var 0) (.var 1))))))) (.mul (.var 1) (.sqrt (.div (.add (.var 0) (.mul (.mul (.num 2 1) (.var 0)) (.var 1))) (.add (.add (.add (.num 1 1) (.var 0)) (.var 1)) (.mul (.var 0) (.var 1))))))) (.mul (.mul (.add (.num 1 1) (.mul (.num 2 1) (.var 0))) (.var 1)) (.sqrt (.div (.add (.var 0) (.mul (.mul (.num 2 1) (.var 0)) (.var 1))) (.add (.add (.add (.num 1 1) (.var 0)) (.var 1)) (.mul (.var 0) (.var 1))))))) (.mul (.sub (.num 1 1) (.mul (.num 2 1) (.var 1))) (.sqrt (.div (.var 0) (.mul (.add (.num 1 1) (.var 0)) (.add (.add (.num 1 1) (.mul (.num 3 1) (.var 1))) (.mul (.num 2 1) (.pow (.var 1) 2)))))))) (.mul (.mul (.add (.num 1 1) (.mul (.num 2 1) (.var 0))) (.add (.neg (.num 1 1)) (.mul (.num 2 1) (.var 1)))) (.sqrt (.div (.var 0) (.mul (.add (.num 1 1) (.var 0)) (.add (.add (.num 1 1) (.mul (.num 3 1) (.var 1))) (.mul (.num 2 1) (.pow (.var 1) 2)))))))) (.mul (.mul (.add (.num 1 1) (.mul (.num 2 1) (.var 0))) (.add (.neg (.num 1 1)) (.mul (.num 2 1) (.var 1)))) (.sqrt (.div (.mul (.var 0) (.add (.num 1 1) (.var 0))) (.add (.add (.num 1 1) (.mul (.num 3 1) (.var 1))) (.mul (.num 2 1) (.pow (.var 1) 2))))))) (.mul (.add (.num 1 1) (.var 0)) (.sqrt (.mul (.mul (.add (.add (.num 3 1) (.mul (.num 8 1) (.var 0))) (.mul (.num 4 1) (.pow (.var 0) 2))) (.add (.num 1 1) (.var 1))) (.add (.num 3 1) (.mul (.num 2 1) (.var 1))))))),
  .neg (.div (.mul (.sqrt (.div (.add (.num 1 1) (.var 1)) (.add (.add (.num 3 1) (.mul (.num 8 1) (.var 0))) (.mul (.num 4 1) (.pow (.var 0) 2))))) (.sub (.sub (.sub (.sub (.sub (.sub (.sub (.sub (.neg (.mul (.sqrt (.div (.mul (.mul (.var 0) (.var 1)) (.add (.num 1 1) (.var 1))) (.mul (.add (.num 1 1) (.var 0)) (.add (.num 2 1) (.var 1))))) (.add (.num 1 1) (.mul (.num 2 1) (.var 1))))) (.mul (.mul (.add (.num 1 1) (.mul (.num 2 1) (.var 0))) (.sqrt (.div (.mul (.mul (.var 0) (.var 1)) (.add (.num 1 1) (.var 1))) (.mul (.add (.num 1 1) (.var 0)) (.add (.num 2 1) (.var 1)))))) (.add (.num 1 1) (.mul (.num 2 1) (.var 1))))) (.mul (.mul (.add (.num 1 1) (.mul (.num 2 1) (.var 0))) (.sqrt (.div (.mul (.mul (.mul (.var 0) (.add (.num 1 1) (.var 0))) (.var 1)) (.add (.num 1 1) (.var 1))) (.add (.num 2 1) (.var 1))))) (.add (.num 1 1) (.mul (.num 2 1) (.var 1))))) (.mul (.num 3 1) (.sqrt (.div (.mul (.var 0) (.var 1)) (.mul (.add (.num 1 1) (.var 0)) (.add (.add (.num 2 1) (.mul (.num 3 1) (.var 1))) (.pow (.var 1) 2))))))) (.mul (.mul (.num 3 1) (.add (.num 1 1) (.mul (.num 2 1) (.var 0)))) (.sqrt (.div (.mul (.var 0) (.var 1)) (.mul (.add (.num 1 1) (.var 0)) (.add (.add (.num 2 1) (.mul (.num 3 1) (.var 1))) (.pow (.var 1) 2))))))) (.mul (.mul (.num 2 1) (.add (.num 1 1) (.mul (.num 2 1) (.var 1)))) (.sqrt (.div (.mul (.var 0) (.var 1)) (.mul (.add (.num 1 1) (.var 0)) (.add (.add (.num 2 1) (.mul (.num 3 1) (.var 1))) (.pow (.var 1) 2))))))) (.mul (.mul (.mul (.num 2 1) (.add (.num 1 1) (.mul (.num 2 1) (.var 0)))) (.add (.num 1 1) (.mul (.num 2 1) (.var 1)))) (.sqrt (.div (.mul (.var 0) (.var 1)) (.mul (.add (.num 1 1) (.var 0)) (.add (.add (.num 2 1) (.mul (.num 3 1) (.var 1))) (.pow (.var 1) 2))))))) (.mul (.mul (.num 3 1) (.add (.num 1 1) (.mul (.num 2 1) (.var 0)))) (.sqrt (.div (.mul (.mul (.var 0) (.add (.num 1 1) (.var 0))) (.var 1)) (.add (.add (.num 2 1) (.mul (.num 3 1) (.var 1))) (.pow (.var 1) 2)))))) (.mul (.mul (.mul (.num 2 1) (.add (.num 1 1) (.mul (.num 2 1) (.var 0)))) (.add (.num 1 1) (.mul (.num 2 1) (.var 1)))) (.sqrt (.div (.mul (.mul (.var 0) (.add (.num 1 1) (.var 0))) (.var 1)) (.add (.add (.num 2 1) (.mul (.num 3 1) (.var 1))) (.pow (.var 1) 2))))))) (.mul (.add (.num 1 1) (.var 0)) (.add (.add (.num 3 1) (.mul (.num 5 1) (.var 1))) (.mul (.num 2 1) (.pow (.var 1) 2))))),
  .sqrt (.div (.sub (.num 9 1) (.mul (.num 4 1) (.pow (.var 1) 2))) (.sub (.num 1 1) (.mul (.num 4 1) (.pow (.var 1) 2)))),
  .div (.mul (.mul (.sqrt (.num 2 1)) (.sqrt (.div (.add (.add (.num 3 1) (.mul (.num 5 1) (.var 1))) (.mul (.num 2 1) (.pow (.var 1) 2))) (.add (.neg (.num 1 1)) (.var 1))))) (.add (.add (.mul (.neg (.num 2 1)) (.sqrt (.div (.mul (.add (.neg (.num 1 1)) (.var 1)) (.var 1)) (.add (.num 1 1) (.mul (.num 2 1) (.var 1)))))) (.div (.num 2 1) (.sqrt (.div (.mul (.var 1) (.add (.num 1 1) (.mul (.num 2 1) (.var 1)))) (.add (.neg (.num 1 1)) (.var 1)))))) (.div (.mul (.add (.neg (.num 1 1)) (.var 1)) (.add (.neg (.num 3 1)) (.mul (.num 2 1) (.var 1)))) (.sqrt (.mul (.var 1) (.add (.sub (.neg (.num 1 1)) (.var 1)) (.mul (.num 2 1) (.pow (.var 1) 2)))))))) (.add (.num 1 1) (.var 1)),
  .div (.sqrt (.div (.mul (.add (.add (.neg (.num 2 1)) (.var 1)) (.pow (.var 1) 2)) (.add (.add (.add (.neg (.num 3 1)) (.var 1)) (.mul (.num 8 1) (.pow (.var 1) 2))) (.mul (.num 4 1) (.pow (.var 1) 3)))) (.var 1))) (.mul (.add (.num 1 1) (.var 1)) (.add (.num 1 1) (.mul (.num 2 1) (.var 1)))),
  .div (.sqrt (.num 6 1)) (.sqrt (.mul (.mul (.var 1) (.add (.num 1 1) (.mul (.num 2 1) (.var 1)))) (.add (.add (.neg (.num 1 1)) (.var 1)) (.mul (.num 2 1) (.pow (.var 1) 2))))),
  .neg (.div (.mul (.sqrt (.num 3 1)) (.add (.add (.add (.mul (.neg (.num 4 1)) (.sqrt (.div (.add (.neg (.num 1 1)) (.mul (.num 2 1) (.var 1))) (.add (.num 1 1) (.var 1))))) (.mul (.mul (.num 7 1) (.pow (.var 1) 2)) (.sqrt (.div (.add (.neg (.num 1 1)) (.mul (.num 2 1) (.var 1))) (.add (.num 1 1) (.var 1)))))) (.mul (.num 6 1) (.sqrt (.add (.add (.neg (.num 1 1)) (.var 1)) (.mul (.num 2 1) (.pow (.var 1) 2)))))) (.mul (.mul (.num 3 1) (.var 1)) (.sub (.sqrt (.div (.add (.neg (.num 1 1)) (.mul (.num 2 1) (.var 1))) (.add (.num 1 1) (.var 1)))) (.mul (.num 2 1) (.sqrt (.add (.add (.neg (.num 1 1)) (.var 1)) (.mul (.num 2 1) (.pow (.var 1) 2))))))))) (.mul (.hpow (.add (.num 1 1) (.var 1)) 1) (.sqrt (.mul (.var 1) (.add (.add (.num 2 1) (.mul (.num 5 1) (.var 1))) (.mul (.num 2 1) (.pow (.var 1) 2))))))),
  .div (.mul (.var 1) (.add (.add (.num 10 1) (.mul (.num 9 1) (.var 1))) (.mul (.num 2 1) (.pow (.var 1) 2)))) (.mul (.mul (.hpow (.add (.num 1 1) (.var 1)) 1) (.add (.num 3 1) (.mul (.num 2 1) (.var 1)))) (.sqrt (.div (.mul (.var 1) (.add (.add (.add (.num 10 1) (.mul (.num 29 1) (.var 1))) (.mul (.num 20 1) (.pow (.var 1) 2))) (.mul (.num 4 1) (.pow (.var 1) 3)))) (.add (.add (.add (.neg (.num 3 1)) (.var 1)) (.mul (.num 8 1) (.pow (.var 1) 2))) (.mul (.num 4 1) (.pow (.var 1) 3)))))),
  .div (.num 3 1) (.add (.add (.num 1 1) (.mul (.num 3 1) (.var 1))) (.mul (.num 2 1) (.pow (.var 1) 2))),
  .neg (.div (.mul (.var 1) (.sqrt (.div (.add (.num 15 1) (.mul (.num 6 1) (.var 1))) (.add (.add (.mul (.num 2 1) (.var 1)) (.mul (.num 5 1) (.pow (.var 1) 2))) (.mul (.num 2 1) (.pow (.var 1) 3)))))) (.add (.num 1 1) (.var 1))),
  .div (.mul (.var 1) (.add (.num 3 1) (.var 1))) (.sqrt (.mul (.var 1) (.add (.add (.add (.num 6 1) (.mul (.num 11 1) (.var 1))) (.mul (.num 6 1) (.pow (.var 1) 2))) (.pow (.var 1) 3)))),
  .div (.sqrt (.num 6 1)) (.sqrt (.mul (.add (.num 1 1) (.var 1)) (.add (.add (.add (.num 6 1) (.mul (.num 19 1) (.var 1))) (.mul (.num 16 1) (.pow (.var 1) 2))) (.mul (.num 4 1) (.pow (.var 1) 3))))),
  .neg (.div (.sqrt (.num 2 1)) (.sqrt (.mul (.add (.num 1 1) (.var 1)) (.add (.num 2 1) (.var 1))))),
  .div (.mul (.neg (.num 2 1)) (.sqrt (.mul (.mul (.var 0) (.add (.num 1 1) (.var 0))) (.add (.add (.neg (.num 3 1)) (.mul (.num 4 1) (.var 1))) (.mul (.num 4 1) (.pow (.var 1) 2)))))) (.add (.add (.add (.num 1 1) (.mul (.num 2 1) (.var 0))) (.mul (.num 2 1) (.var 1))) (.mul (.mul (.num 4 1) (.var 0)) (.var 1))),
  .div (.mul (.num 2 1) (.sqrt (.div (.mul (.mul (.var 0) (.add (.num 1 1) (.var 0))) (.add (.num 3 1) (.mul (.num 2 1) (.var 1)))) (.add (.num 1 1) (.mul (.num 2 1) (.var 1)))))) (.add (.add (.add (.num 1 1) (.mul (.num 2 1) (.var 0))) (.var 1)) (.mul (.mul (.num 2 1) (.var 0)) (.var 1))),
  .div (.mul (.neg (.num 2 1)) (.add (.mul (.num 2 1) (.sqrt (.div (.mul (.mul (.var 0) (.add (.num 1 1) (.var 0))) (.var 1)) (.add (.num 2 1) (.var 1))))) (.sqrt (.div (.mul (.mul (.var 0) (.add (.num 1 1) (.var 0))) (.pow (.var 1) 3)) (.add (.num 2 1) (.var 1)))))) (.mul (.add (.num 1 1) (.mul (.num 2 1) (.var 0))) (.add (.num 1 1) (.var 1))),
  .div (.mul (.neg (.num 2 1)) (.sqrt (.mul (.var 0) (.add (.num 1 1) (.var 0))))) (.mul (.add (.num 1 1) (.mul (.num 2 1) (.var 0))) (.add (.add (.num 1 1) (.mul (.num 3 1) (.var 1))) (.mul (.num 2 1) (.pow (.var 1) 2)))),
  .div (.mul (.num 2 1) (.sqrt (.mul (.var 0) (.add (.num 1 1) (.var 0))))) (.add (.add (.add (.num 1 1) (.mul (.num 2 1) (.var 0))) (.var 1)) (.mul (.mul (.num 2 1) (.var 0)) (.var 1))),
  .neg (.div (.sqrt (.add (.add (.neg (.num 3 1)) (.mul (.num 4 1) (.var 1))) (.mul (.num 4 1) (.pow (.var 1) 2)))) (.add (.num 1 1) (.mul (.num 2 1) (.var 1)))),
  .div (.sub (.mul (.add (.num 2 1) (.var 1)) (.sqrt (.div (.mul (.mul (.add (.num 1 1) (.var 0)) (.var 1)) (.add (.add (.num 3 1) (.mul (.num 5 1) (.var 1))) (.mul (.num 2 1) (.pow (.var 1) 2)))) (.add (.num 1 1) (.mul (.num 2 1) (.var 0)))))) (.mul (.mul (.num 2 1) (.var 0)) (.add (.neg (.mul (.var 1) (.sqrt (.div (.mul (.mul (.add (.num 1 1) (.var 0)) (.var 1)) (.add (.add (.num 3 1) (.mul (.num 5 1) (.var 1))) (.mul (.num 2 1) (.pow (.var 1) 2)))) (.add (.num 1 1) (.mul (.num 2 1) (.var 0))))))) (.sqrt (.div (.mul (.mul (.add (.num 1 1) (.var 0)) (.pow (.var 1) 3)) (.add (.add (.num 3 1) (.mul (.num 5 1) (.var 1))) (.mul (.num 2 1) (.pow (.var 1) 2)))) (.add (.num 1 1) (.mul (.num 2 1) (.var 0)))))))) (.mul (.add (.num 1 1) (.var 1)) (.sqrt (.mul (.mul (.mul (.add (.num 1 1) (.var 0)) (.add (.num 1 1) (.mul (.num 2 1) (.var 0)))) (.add (.num 3 1) (.mul (.num 2 1) (.var 1)))) (.add (.add (.num 2 1) (.mul (.num 3 1) (.var 1))) (.pow (.var 1) 2))))),
  .div (.sub (.sub (.sub (.add (.sub (.mul (.var 1) (.sqrt (.div (.mul (.mul (.pow (.add (.num 1 1) (.var 0)) 3) (.var 1)) (.pow (.add (.num 1 1) (.var 1)) 2)) (.mul (.add (.num 3 1) (.mul (.num 2 1) (.var 0))) (.add (.num 3 1) (.mul (.num 2 1) (.var 1))))))) (.mul (.pow (.var 1) 2) (.sqrt (.div (.mul (.mul (.pow (.add (.num 1 1) (.var 0)) 3) (.var 1)) (.pow (.add (.num 1 1) (.var 1)) 2)) (.mul (.add (.num 3 1) (.mul (.num 2 1) (.var 0))) (.add (.num 3 1) (.mul (.num 2 1) (.var 1)))))))) (.mul (.mul (.num 2 1) (.var 1)) (.sqrt (.div (.mul (.mul (.pow (.add (.num 1 1) (.var 0)) 3) (.var 1)) (.pow (.add (.num 1 1) (.var 1)) 2)) (.mul (.mul (.pow (.add (.num 1 1) (.mul (.num 2 1) (.var 0))) 2) (.add (.num 3 1) (.mul (.num 2 1) (.var 0)))) (.add (.num 3 1) (.mul (.num 2 1) (.var 1)))))))) (.mul (.mul (.num 2 1) (.pow (.var 1) 2)) (.sqrt (.div (.mul (.mul (.pow (.add (.num 1 1) (.var 0)) 3) (.var 1)) (.pow (.add (.num 1 1) (.var 1)) 2)) (.mul (.mul (.pow (.add (.num 1 1) (.mul (.num 2 1) (.var 0))) 2) (.add (.num 3 1) (.mul (.num 2 1) (.var 0)))) (.add (.num 3 1) (.mul (.num 2 1) (.var 1)))))))) (.div (.mul (.num 3 1) (.hpow (.mul (.mul (.add (.num 1 1) (.var 0)) (.var 1)) (.add (.num 1 1) (.var 1))) 1)) (.sqrt (.mul (.add (.num 3 1) (.mul (.num 2 1) (.var 0))) (.add (.add (.num 3 1) (.mul (.num 5 1) (.var 1))) (.mul (.num 2 1) (.pow (.var 1) 2))))))) (.div (.mul (.num 6 1) (.hpow (.mul (.mul (.add (.num 1 1) (.var 0)) (.var 1)) (.add (.num 1 1) (.var 1))) 1)) (.mul (.add (.num 1 1) (.mul (.num 2 1) (.var 0))) (.sqrt (.mul (.add (.num 3 1) (.mul (.num 2 1) (.var 0))) (.add (.add (.num 3 1) (.mul (.num 5 1) (.var 1))) (.mul (.num 2 1) (.pow (.var 1) 2)))))))) (.sqrt (.div (.mul (.mul (.mul (.mul (.pow (.add (.num 1 1) (.var 0)) 3) (.add (.num 3 1) (.mul (.num 2 1) (.var 0)))) (.pow (.var 1) 2)) (.pow (.add (.num 1 1) (.var 1)) 4)) (.add (.num 2 1) (.var 1))) (.mul (.pow (.add (.num 1 1) (.mul (.num 2 1) (.var 0))) 2) (.add (.num 3 1) (.mul (.num 2 1) (.var 1)))))),
  .div (.num 1 1) (.mul (.mul (.add (.num 1 1) (.mul (.num 2 1) (.var 0))) (.add (.num 1 1) (.var 1))) (.add (.num 1 1) (.mul (.num 2 1) (.var 1)))),
  .neg (.div (.mul (.sqrt (.div (.mul (.add (.num 1 1) (.mul (.num 2 1) (.var 0))) (.add (.num 1 1) (.mul (.num 2 1) (.var 1)))) (.add (.num 3 1) (.mul (.num 2 1) (.var 0))))) (.add (.add (.add (.add (.sub (.mul (.mul (.mul (.neg (.num 2 1)) (.var 1)) (.sqrt (.div (.mul (.add (.num 1 1) (.mul (.num 2 1) (.var 0))) (.add (.num 1 1) (.var 1))) (.mul (.add (.num 3 1) (.mul (.num 2 1) (.var 0))) (.add (.num 1 1) (.mul (.num 2 1) (.var 1))))))) (.hpow (.mul (.add (.num 1 1) (.var 0)) (.add (.num 3 1) (.mul (.num 2 1) (.var 1)))) 1)) (.mul (.mul (.mul (.num 4 1) (.var 1)) (.sqrt (.div (.add (.num 1 1) (.var 1)) (.mul (.add (.add (.num 3 1) (.mul (.num 8 1) (.var 0))) (.mul (.num 4 1) (.pow (.var 0) 2))) (.add (.num 1 1) (.mul (.num 2 1) (.var 1))))))) (.hpow (.mul (.add (.num 1 1) (.var 0)) (.add (.num 3 1) (.mul (.num 2 1) (.var 1)))) 1))) (.mul (.mul (.mul (.var 1) (.sqrt (.div (.mul (.add (.num 1 1) (.mul (.num 2 1) (.var 0))) (.add (.num 1 1) (.var 1))) (.add (.num 3 1) (.mul (.num 2 1) (.var 0)))))) (.add (.neg (.num 1 1)) (.mul (.num 2 1) (.var 1)))) (.hpow (.div (.mul (.add (.num 1 1) (.var 0)) (.add (.num 3 1) (.mul (.num 2 1) (.var 1)))) (.add (.num 1 1) (.mul (.num 2 1) (.var 1)))) 1))) (.mul (.mul (.mul (.mul (.num 2 1) (.var 1)) (.sqrt (.div (.add (.num 1 1) (.var 1)) (.add (.add (.num 3 1) (.mul (.num 8 1) (.var 0))) (.mul (.num 4 1) (.pow (.var 0) 2)))))) (.add (.neg (.num 1 1)) (.mul (.num 2 1) (.var 1)))) (.hpow (.div (.mul (.add (.num 1 1) (.var 0)) (.add (.num 3 1) (.mul (.num 2 1) (.var 1)))) (.add (.num 1 1) (.mul (.num 2 1) (.var 1)))) 1))) (.div (.mul (.num 2 1) (.hpow (.mul (.add (.num 1 1) (.var 0)) (.add (.add (.num 3 1) (.mul (.num 5 1) (.var 1))) (.mul (.num 2 1) (.pow (.var 1) 2)))) 1)) (.sqrt (.mul (.add (.add (.num 3 1) (.mul (.num 8 1) (.var 0))) (.mul (.num 4 1) (.pow (.var 0) 2))) (.add (.num 1 1) (.mul (.num 2 1) (.var 1))))))) (.mul (.sqrt (.div (.add (.num 1 1) (.mul (.num 2 1) (.var 0))) (.add (.add (.add (.num 3 1) (.mul (.num 2 1) (.var 0))) (.mul (.num 6 1) (.var 1))) (.mul (.mul (.num 4 1) (.var 0)) (.var 1))))) (.hpow (.mul (.add (.num 1 1) (.var 0)) (.add (.add (.num 3 1) (.mul (.num 5 1) (.var 1))) (.mul (.num 2 1) (.pow (.var 1) 2)))) 1)))) (.hpow (.mul (.add (.num 1 1) (.var 0)) (.add (.add (.num 3 1) (.mul (.num 5 1) (.var 1))) (.mul (.num 2 1) (.pow (.var 1) 2)))) 1)),
  .div (.sub (.add (.add (.sub (.sub (.add (.sqrt (.div (.mul (.mul (.mul (.pow (.add (.num 1 1) (.var 0)) 3) (.add (.num 1 1) (.mul (.num 2 1) (.var 0)))) (.add (.num 1 1) (.var 1))) (.pow (.add (.num 3 1) (.mul (.num 2 1) (.var 1))) 3)) (.mul (.add (.num 3 1) (.mul (.num 2 1) (.var 0))) (.add (.num 2 1) (.var 1))))) (.mul (.num 2 1) (.sqrt (.div (.mul (.mul (.pow (.add (.num 1 1) (.var 0)) 3) (.add (.num 1 1) (.var 1))) (.pow (.add (.num 3 1) (.mul (.num 2 1) (.var 1))) 3)) (.mul (.add (.add (.num 3 1) (.mul (.num 8 1) (.var 0))) (.mul (.num 4 1) (.pow (.var 0) 2))) (.add (.num 2 1) (.var 1))))))) (.mul (.num 3 1) (.sqrt (.div (.mul (.mul (.mul (.mul (.pow (.add (.num 1 1) (.var 0)) 3) (.add (.num 1 1) (.mul (.num 2 1) (.var 0)))) (.pow (.var 1) 2)) (.add (.num 1 1) (.var 1))) (.pow (.add (.num 3 1) (.mul (.num 2 1) (.var 1))) 3)) (.mul (.mul (.add (.num 3 1) (.mul (.num 2 1) (.var 0))) (.add (.num 2 1) (.var 1))) (.pow (.add (.num 1 1) (.mul (.num 2 1) (.var 1))) 2)))))) (.mul (.num 6 1) (.sqrt (.div (.mul (.mul (.mul (.pow (.add (.num 1 1) (.var 0)) 3) (.pow (.var 1) 2)) (.add (.num 1 1) (.var 1))) (.pow (.add (.num 3 1) (.mul (.num 2 1) (.var 1))) 3)) (.mul (.mul (.add (.add (.num 3 1) (.mul (.num 8 1) (.var 0))) (.mul (.num 4 1) (.pow (.var 0) 2))) (.add (.num 2 1) (.var 1))) (.pow (.add (.num 1 1) (.mul (.num 2 1) (.var 1))) 2)))))) (.sqrt (.div (.mul (.mul (.pow (.add (.num 1 1) (.var 0)) 3) (.add (.num 1 1) (.mul (.num 2 1) (.var 0)))) (.pow (.add (.add (.num 3 1) (.mul (.num 5 1) (.var 1))) (.mul (.num 2 1) (.pow (.var 1) 2))) 3)) (.mul (.add (.num 3 1) (.mul (.num 2 1) (.var 0))) (.add (.num 2 1) (.var 1)))))) (.mul (.num 2 1) (.sqrt (.div (.mul (.pow (.add (.num 1 1) (.var 0)) 3) (.pow (.add (.add (.num 3 1) (.mul (.num 5 1) (.var 1))) (.mul (.num 2 1) (.pow (.var 1) 2))) 3)) (.mul (.add (.add (.num 3 1) (.mul (.num 8 1) (.var 0))) (.mul (.num 4 1) (.pow (.var 0) 2))) (.add (.num 2 1) (.var 1))))))) (.mul (.var 1) (.add (.sqrt (.div (.mul (.mul (.mul (.pow (.add (.num 1 1) (.var 0)) 3) (.add (.num 1 1) (.mul (.num 2 1) (.var 0)))) (.add (.num 1 1) (.var 1))) (.pow (.add (.num 3 1) (.mul (.num 2 1) (.var 1))) 3)) (.mul (.add (.num 3 1) (.mul (.num 2 1) (.var 0))) (.add (.num 2 1) (.var 1))))) (.mul (.num 2 1) (.sqrt (.div (.mul (.mul (.pow (.add (.num 1 1) (.var 0)) 3) (.add (.num 1 1) (.var 1))) (.pow (.add (.num 3 1) (.mul (.num 2 1) (.var 1))) 3)) (.mul (.add (.add (.num 3 1) (.mul (.num 8 1) (.var 0))) (.mul (.num 4 1) (.pow (.var 0) 2))) (.add (.num 2 1) (.var 1))))))))) (.sqrt (.div (.mul (.mul (.mul (.pow (.add (.num 1 1) (.var 0)) 3) (.add (.num 3 1) (.mul (.num 2 1) (.var 0)))) (.add (.num 2 1) (.var 1))) (.pow (.add (.add (.num 3 1) (.mul (.num 5 1) (.var 1))) (.mul (.num 2 1) (.pow (.var 1) 2))) 3)) (.mul (.add (.num 1 1) (.mul (.num 2 1) (.var 0))) (.pow (.add (.num 1 1) (.mul (.num 2 1) (.var 1))) 2)))),
  .div (.sub (.sub (.sub (.sub (.sub (.mul (.neg (.num 3 1)) (.sqrt (.div (.mul (.mul (.mul (.pow (.add (.num 1 1) (.var 0)) 3) (.add (.num 1 1) (.mul (.num 2 1) (.var 0)))) (.pow (.add (.num 1 1) (.var 1)) 2)) (.pow (.add (.num 3 1) (.mul (.num 2 1) (.var 1))) 3)) (.mul (.add (.num 3 1) (.mul (.num 2 1) (.var 0))) (.add (.add (.num 10 1) (.mul (.num 9 1) (.var 1))) (.mul (.num 2 1) (.pow (.var 1) 2))))))) (.sqrt (.div (.mul (.mul (.mul (.pow (.add (.num 1 1) (.var 0)) 3) (.add (.num 1 1) (.mul (.num 2 1) (.var 0)))) (.pow (.add (.num 1 1) (.var 1)) 4)) (.pow (.add (.num 3 1) (.mul (.num 2 1) (.var 1))) 3)) (.mul (.add (.num 3 1) (.mul (.num 2 1) (.var 0))) (.add (.add (.num 10 1) (.mul (.num 9 1) (.var 1))) (.mul (.num 2 1) (.pow (.var 1) 2))))))) (.mul (.num 2 1) (.sqrt (.div (.mul (.mul (.pow (.add (.num 1 1) (.var 0)) 3) (.pow (.add (.num 1 1) (.var 1)) 4)) (.pow (.add (.num 3 1) (.mul (.num 2 1) (.var 1))) 3)) (.mul (.add (.add (.num 3 1) (.mul (.num 8 1) (.var 0))) (.mul (.num 4 1) (.pow (.var 0) 2))) (.add (.add (.num 10 1) (.mul (.num 9 1) (.var 1))) (.mul (.num 2 1) (.pow (.var 1) 2)))))))) (.mul (.num 6 1) (.sqrt (.div (.mul (.mul (.mul (.pow (.add (.num 1 1) (.var 0)) 3) (.add (.num 1 1) (.mul (.num 2 1) (.var 0)))) (.pow (.add (.num 1 1) (.var 1)) 2)) (.pow (.add (.num 3 1) (.mul (.num 2 1) (.var 1))) 3)) (.mul (.mul (.add (.num 3 1) (.mul (.num 2 1) (.var 0))) (.pow (.add (.num 1 1) (.mul (.num 2 1) (.var 1))) 2)) (.add (.add (.num 10 1) (.mul (.num 9 1) (.var 1))) (.mul (.num 2 1) (.pow (.var 1) 2)))))))) (.div (.mul (.mul (.num 6 1) (.add (.num 1 1) (.var 1))) (.hpow (.mul (.add (.num 1 1) (.var 0)) (.add (.num 3 1) (.mul (.num 2 1) (.var 1)))) 1)) (.sqrt (.mul (.add (.add (.num 3 1) (.mul (.num 8 1) (.var 0))) (.mul (.num 4 1) (.pow (.var 0) 2))) (.add (.add (.num 10 1) (.mul (.num 9 1) (.var 1))) (.mul (.num 2 1) (.pow (.var 1) 2))))))) (.div (.mul (.mul (.num 12 1) (.add (.num 1 1) (.var 1))) (.hpow (.mul (.add (.num 1 1) (.var 0)) (.add (.num 3 1) (.mul (.num 2 1) (.var 1)))) 1)) (.mul (.add (.num 1 1) (.mul (.num 2 1) (.var 1))) (.sqrt (.mul (.add (.add (.num 3 1) (.mul (.num 8 1) (.var 0))) (.mul (.num 4 1) (.pow (.var 0) 2))) (.add (.add (.num 10 1) (.mul (.num 9 1) (.var 1))) (.mul (.num 2 1) (.pow (.var 1) 2)))))))) (.sqrt (.div (.mul (.mul (.mul (.mul (.pow (.add (.num 1 1) (.var 0)) 3) (.add (.num 3 1) (.mul (.num 2 1) (.var 0)))) (.pow (.add (.num 1 1) (.var 1)) 2)) (.pow (.add (.num 3 1) (.mul (.num 2 1) (.var 1))) 3)) (.add (.add (.num 10 1) (.mul (.num 9 1) (.var 1))) (.mul (.num 2 1) (.pow (.var 1) 2)))) (.mul (.add (.num 1 1) (.mul (.num 2 1) (.var 0))) (.pow (.add (.num 1 1) (.mul (.num 2 1) (.var 1))) 2)))),
  .div (.mul (.add (.num 1 1) (.mul (.num 2 1) (.var 0))) (.sub (.sub (.sub (.add (.sub (.mul (.var 1) (.sqrt (.div (.mul (.mul (.pow (.add (.num 1 1) (.var 0)) 3) (.var 1)) (.pow (.add (.num 1 1) (.var 1)) 2)) (.mul (.add (.num 3 1) (.mul (.num 2 1) (.var 0))) (.add (.num 3 1) (.mul (.num 2 1) (.var 1))))))) (.mul (.pow (.var 1) 2) (.sqrt (.div (.mul (.mul (.pow (.add (.num 1 1) (.var 0)) 3) (.var 1)) (.pow (.add (.num 1 1) (.var 1)) 2)) (.mul (.add (.num 3 1) (.mul (.num 2 1) (.var 0))) (.add (.num 3 1) (.mul (.num 2 1) (.var 1)))))))) (.mul (.mul (.num 2 1) (.var 1)) (.sqrt (.div (.mul (.mul (.pow (.add (.num 1 1) (.var 0)) 3) (.var 1)) (.pow (.add (.num 1 1) (.var 1)) 2)) (.mul (.mul (.pow (.add (.num 1 1) (.mul (.num 2 1) (.var 0))) 2) (.add (.num 3 1) (.mul (.num 2 1) (.var 0)))) (.add (.num 3 1) (.mul (.num 2 1) (.var 1)))))))) (.mul (.mul (.num 2 1) (.pow (.var 1) 2)) (.sqrt (.div (.mul (.mul (.pow (.add (.num 1 1) (.var 0)) 3) (.var 1)) (.pow (.add (.num 1 1) (.var 1)) 2)) (.mul (.mul (.pow (.add (.num 1 1) (.mul (.num 2 1) (.var 0))) 2) (.add (.num 3 1) (.mul (.num 2 1) (.var 0)))) (.add (.num 3 1) (.mul (.num 2 1) (.var 1)))))))) (.div (.mul (.num 3 1) (.hpow (.mul (.mul (.add (.num 1 1) (.var 0)) (.var 1)) (.add (.num 1 1) (.var 1))) 1)) (.sqrt (.mul (.add (.num 3 1) (.mul (.num 2 1) (.var 0))) (.add (.add (.num 3 1) (.mul (.num 5 1) (.var 1))) (.mul (.num 2 1) (.pow (.var 1) 2))))))) (.div (.mul (.num 6 1) (.hpow (.mul (.mul (.add (.num 1 1) (.var 0)) (.var 1)) (.add (.num 1 1) (.var 1))) 1)) (.mul (.add (.num 1 1) (.mul (.num 2 1) (.var 0))) (.sqrt (.mul (.add (.num 3 1) (.mul (.num 2 1) (.var 0))) (.add (.add (.num 3 1) (.mul (.num 5 1) (.var 1))) (.mul (.num 2 1) (.pow (.var 1) 2))))))))) (.mul (.mul (.mul (.hpow (.add (.num 1 1) (.var 0)) 1) (.var 1)) (.pow (.add (.num 1 1) (.var 1)) 2)) (.sqrt (.div (.mul (.add (.num 3 1) (.mul (.num 2 1) (.var 0))) (.add (.num 2 1) (.var 1))) (.add (.num 3 1) (.mul (.num 2 1) (.var 1)))))),
  .div (.mul (.sqrt (.div (.mul (.add (.num 1 1) (.mul (.num 2 1) (.var 0))) (.add (.num 1 1) (.mul (.num 2 1) (.var 1)))) (.add (.num 3 1) (.mul (.num 2 1) (.var 0))))) (.sub (.sub (.sub (.sub (.add (.mul (.mul (.mul (.num 2 1) (.var 1)) (.sqrt (.div (.mul (.add (.num 1 1) (.mul (.num 2 1) (.var 0))) (.add (.num 1 1) (.var 1))) (.mul (.add (.num 3 1) (.mul (.num 2 1) (.var 0))) (.add (.num 1 1) (.mul (.num 2 1) (.var 1))))))) (.hpow (.mul (.add (.num 1 1) (.var 0)) (.add (.num 3 1) (.mul (.num 2 1) (.var 1)))) 1)) (.mul (.mul (.mul (.num 4 1) (.var 1)) (.sqrt (.div (.add (.num 1 1) (.var 1)) (.mul (.add (.add (.num 3 1) (.mul (.num 8 1) (.var 0))) (.mul (.num 4 1) (.pow (.var 0) 2))) (.add (.num 1 1) (.mul (.num 2 1) (.var 1))))))) (.hpow (.mul (.add (.num 1 1) (.var 0)) (.add (.num 3 1) (.mul (.num 2 1) (.var 1)))) 1))) (.mul (.mul (.mul (.var 1) (.sqrt (.div (.mul (.add (.num 1 1) (.mul (.num 2 1) (.var 0))) (.add (.num 1 1) (.var 1))) (.add (.num 3 1) (.mul (.num 2 1) (.var 0)))))) (.add (.neg (.num 1 1)) (.mul (.num 2 1) (.var 1)))) (.hpow (.div (.mul (.add (.num 1 1) (.var 0)) (.add (.num 3 1) (.mul (.num 2 1) (.var 1)))) (.add (.num 1 1) (.mul (.num 2 1) (.var 1)))) 1))) (.mul (.mul (.mul (.mul (.num 2 1) (.var 1)) (.sqrt (.div (.add (.num 1 1) (.var 1)) (.add (.add (.num 3 1) (.mul (.num 8 1) (.var 0))) (.mul (.num 4 1) (.pow (.var 0) 2)))))) (.add (.neg (.num 1 1)) (.mul (.num 2 1) (.var 1)))) (.hpow (.div (.mul (.add (.num 1 1) (.var 0)) (.add (.num 3 1) (.mul (.num 2 1) (.var 1)))) (.add (.num 1 1) (.mul (.num 2 1) (.var 1)))) 1))) (.div (.mul (.num 2 1) (.hpow (.mul (.add (.num 1 1) (.var 0)) (.add (.add (.num 3 1) (.mul (.num 5 1) (.var 1))) (.mul (.num 2 1) (.pow (.var 1) 2)))) 1)) (.sqrt (.mul (.add (.add (.num 3 1) (.mul (.num 8 1) (.var 0))) (.mul (.num 4 1) (.pow (.var 0) 2))) (.add (.num 1 1) (.mul (.num 2 1) (.var 1))))))) (.mul (.sqrt (.div (.add (.num 1 1) (.mul (.num 2 1) (.var 0))) (.add (.add (.add (.num 3 1) (.mul (.num 2 1) (.var 0))) (.mul (.num 6 1) (.var 1))) (.mul (.mul (.num 4 1) (.var 0)) (.var 1))))) (.hpow (.mul (.add (.num 1 1) (.var 0)) (.add (.add (.num 3 1) (.mul (.num 5 1) (.var 1))) (.mul (.num 2 1) (.pow (.var 1) 2)))) 1)))) (.hpow (.mul (.add (.num 1 1) (.var 0)) (.add (.add (.num 3 1) (.mul (.num 5 1) (.var 1))) (.mul (.num 2 1) (.pow (.var 1) 2)))) 1),
  .mul (.sqrt (.div (.mul (.add (.num 1 1) (.mul (.num 2 1) (.var 0))) (.pow (.add (.num 1 1) (.mul (.num 2 1) (.var 1))) 2)) (.mul (.mul (.mul (.pow (.add (.num 1 1) (.var 0)) 3) (.add (.num 3 1) (.mul (.num 2 1) (.var 0)))) (.add (.num 2 1) (.var 1))) (.pow (.add (.add (.num 3 1) (.mul (.num 5 1) (.var 1))) (.mul (.num 2 1) (.pow (.var 1) 2))) 3)))) (.add (.add (.sub (.sub (.add (.sub (.sub (.div (.num 2 1) (.sqrt (.div (.mul (.add (.add (.num 3 1) (.mul (.num 8 1) (.var 0))) (.mul (.num 4 1) (.pow (.var 0) 2))) (.add (.num 2 1) (.var 1))) (.mul (.mul (.pow (.add (.num 1 1) (.var 0)) 3) (.add (.num 1 1) (.var 1))) (.pow (.add (.num 3 1) (.mul (.num 2 1) (.var 1))) 3))))) (.div (.mul (.num 2 1) (.var 1)) (.sqrt (.div (.mul (.add (.add (.num 3 1) (.mul (.num 8 1) (.var 0))) (.mul (.num 4 1) (.pow (.var 0) 2))) (.add (.num 2 1) (.var 1))) (.mul (.mul (.pow (.add (.num 1 1) (.var 0)) 3) (.add (.num 1 1) (.var 1))) (.pow (.add (.num 3 1) (.mul (.num 2 1) (.var 1))) 3)))))) (.div (.num 6 1) (.sqrt (.div (.mul (.mul (.add (.add (.num 3 1) (.mul (.num 8 1) (.var 0))) (.mul (.num 4 1) (.pow (.var 0) 2))) (.add (.num 2 1) (.var 1))) (.pow (.add (.num 1 1) (.mul (.num 2 1) (.var 1))) 2)) (.mul (.mul (.mul (.pow (.add (.num 1 1) (.var 0)) 3) (.pow (.var 1) 2)) (.add (.num 1 1) (.var 1))) (.pow (.add (.num 3 1) (.mul (.num 2 1) (.var 1))) 3)))))) (.sqrt (.div (.mul (.mul (.mul (.pow (.add (.num 1 1) (.var 0)) 3) (.add (.num 1 1) (.mul (.num 2 1) (.var 0)))) (.add (.num 1 1) (.var 1))) (.pow (.add (.num 3 1) (.mul (.num 2 1) (.var 1))) 3)) (.mul (.add (.num 3 1) (.mul (.num 2 1) (.var 0))) (.add (.num 2 1) (.var 1)))))) (.mul (.var 1) (.sqrt (.div (.mul (.mul (.mul (.pow (.add (.num 1 1) (.var 0)) 3) (.add (.num 1 1) (.mul (.num 2 1) (.var 0)))) (.add (.num 1 1) (.var 1))) (.pow (.add (.num 3 1) (.mul (.num 2 1) (.var 1))) 3)) (.mul (.add (.num 3 1) (.mul (.num 2 1) (.var 0))) (.add (.num 2 1) (.var 1))))))) (.mul (.num 3 1) (.sqrt (.div (.mul (.mul (.mul (.mul (.pow (.add (.num 1 1) (.var 0)) 3) (.add (.num 1 1) (.mul (.num 2 1) (.var 0)))) (.pow (.var 1) 2)) (.add (.num 1 1) (.var 1))) (.pow (.add (.num 3 1) (.mul (.num 2 1) (.var 1))) 3)) (.mul (.mul (.add (.num 3 1) (.mul (.num 2 1) (.var 0))) (.add (.num 2 1) (.var 1))) (.pow (.add (.num 1 1) (.mul (.num 2 1) (.var 1))) 2)))))) (.div (.num 1 1) (.sqrt (.div (.mul (.add (.num 3 1) (.mul (.num 2 1) (.var 0))) (.add (.num 2 1) (.var 1))) (.mul (.mul (.pow (.add (.num 1 1) (.var 0)) 3) (.add (.num 1 1) (.mul (.num 2 1) (.var 0)))) (.pow (.add (.add (.num 3 1) (.mul (.num 5 1) (.var 1))) (.mul (.num 2 1) (.pow (.var 1) 2))) 3)))))) (.div (.num 2 1) (.sqrt (.div (.mul (.add (.add (.num 3 1) (.mul (.num 8 1) (.var 0))) (.mul (.num 4 1) (.pow (.var 0) 2))) (.add (.num 2 1) (.var 1))) (.mul (.pow (.add (.num 1 1) (.var 0)) 3) (.pow (.add (.add (.num 3 1) (.mul (.num 5 1) (.var 1))) (.mul (.num 2 1) (.pow (.var 1) 2))) 3)))))),
  .div (.mul (.neg (.num 2 1)) (.sqrt (.div (.mul (.mul (.var 0) (.add (.num 1 1) (.var 0))) (.add (.neg (.num 9 1)) (.mul (.num 4 1) (.pow (.var 1) 2)))) (.add (.neg (.num 1 1)) (.mul (.num 4 1) (.pow (.var 1) 2)))))) (.add (.num 1 1) (.mul (.num 2 1) (.var 0))),
  .div (.mul (.mul (.num 2 1) (.sqrt (.num 2 1))) (.sqrt (.div (.mul (.mul (.var 0) (.add (.num 1 1) (.var 0))) (.add (.add (.num 3 1) (.mul (.num 5 1) (.var 1))) (.mul (.num 2 1) (.pow (.var 1) 2)))) (.mul (.var 1) (.add (.num 1 1) (.mul (.num 2 1) (.var 1))))))) (.add (.add (.add (.num 1 1) (.mul (.num 2 1) (.var 0))) (.var 1)) (.mul (.mul (.num 2 1) (.var 0)) (.var 1))),
  .div (.mul (.mul (.neg (.num 2 1)) (.add (.sub (.num 1 1) (.mul (.num 3 1) (.var 1))) (.mul (.num 2 1) (.pow (.var 1) 2)))) (.sqrt (.div (.mul (.mul (.var 0) (.add (.num 1 1) (.var 0))) (.add (.add (.add (.num 6 1) (.mul (.num 13 1) (.var 1))) (.mul (.num 9 1) (.pow (.var 1) 2))) (.mul (.num 2 1) (.pow (.var 1) 3)))) (.mul (.pow (.add (.num 1 1) (.mul (.num 2 1) (.var 0))) 2) (.add (.sub (.var 1) (.mul (.num 3 1) (.pow (.var 1) 2))) (.mul (.num 2 1) (.pow (.var 1) 3))))))) (.mul (.add (.num 1 1) (.var 1)) (.add (.num 1 1) (.mul (.num 2 1) (.var 1)))),
  .div (.mul (.mul (.neg (.num 2 1)) (.sqrt (.num 6 1))) (.sqrt (.neg (.div (.mul (.var 0) (.add (.num 1 1) (.var 0))) (.sub (.sub (.add (.var 1) (.pow (.var 1) 2)) (.mul (.num 4 1) (.pow (.var 1) 3))) (.mul (.num 4 1) (.pow (.var 1) 4))))))) (.add (.num 1 1) (.mul (.num 2 1) (.var 0))),
  .div (.mul (.mul (.mul (.num 2 1) (.sqrt (.num 3 1))) (.add (.num 2 1) (.var 1))) (.sqrt (.div (.mul (.mul (.var 0) (.add (.num 1 1) (.var 0))) (.add (.neg (.num 1 1)) (.mul (.num 2 1) (.var 1)))) (.mul (.mul (.pow (.add (.num 1 1) (.mul (.num 2 1) (.var 0))) 2) (.var 1)) (.add (.add (.num 2 1) (.mul (.num 5 1) (.var 1))) (.mul (.num 2 1) (.pow (.var 1) 2))))))) (.add (.num 1 1) (.var 1)),
  .div (.mul (.mul (.mul (.neg (.num 2 1)) (.var 1)) (.add (.add (.num 10 1) (.mul (.num 9 1) (.var 1))) (.mul (.num 2 1) (.pow (.var 1) 2)))) (.sqrt (.div (.mul (.mul (.var 0) (.add (.num 1 1) (.var 0))) (.add (.add (.neg (.num 3 1)) (.mul (.num 4 1) (.var 1))) (.mul (.num 4 1) (.pow (.var 1) 2)))) (.mul (.mul (.pow (.add (.num 1 1) (.mul (.num 2 1) (.var 0))) 2) (.var 1)) (.add (.add (.add (.num 10 1) (.mul (.num 29 1) (.var 1))) (.mul (.num 20 1) (.pow (.var 1) 2))) (.mul (.num 4 1) (.pow (.var 1) 3))))))) (.add (.add (.num 3 1) (.mul (.num 5 1) (.var 1))) (.mul (.num 2 1) (.pow (.var 1) 2))),
  .div (.mul (.mul (.num 6 1) (.sqrt (.div (.mul (.add (.num 1 1) (.var 0)) (.add (.add (.num 3 1) (.mul (.num 5 1) (.var 1))) (.mul (.num 2 1) (.pow (.var 1) 2)))) (.add (.var 1) (.mul (.mul (.num 2 1) (.var 0)) (.var 1)))))) (.add (.sub (.add (.mul (.neg (.num 2 1)) (.sqrt (.div (.mul (.mul (.var 0) (.var 1)) (.add (.num 3 1) (.mul (.num 2 1) (.var 1)))) (.mul (.add (.num 1 1) (.mul (.num 2 1) (.var 0))) (.add (.num 1 1) (.var 1)))))) (.mul (.mul (.num 2 1) (.pow (.var 1) 3)) (.sqrt (.div (.mul (.mul (.var 0) (.var 1)) (.add (.num 3 1) (.mul (.num 2 1) (.var 1)))) (.mul (.add (.num 1 1) (.mul (.num 2 1) (.var 0))) (.add (.num 1 1) (.var 1))))))) (.mul (.var 1) (.sqrt (.div (.mul (.mul (.var 0) (.var 1)) (.add (.add (.num 3 1) (.mul (.num 5 1) (.var 1))) (.mul (.num 2 1) (.pow (.var 1) 2)))) (.add (.num 1 1) (.mul (.num 2 1) (.var 0))))))) (.mul (.pow (.var 1) 2) (.sub (.mul (.num 3 1) (.sqrt (.div (.mul (.mul (.var 0) (.var 1)) (.add (.num 3 1) (.mul (.num 2 1) (.var 1)))) (.mul (.add (.num 1 1) (.mul (.num 2 1) (.var 0))) (.add (.num 1 1) (.var 1)))))) (.mul (.num 2 1) (.sqrt (.div (.mul (.mul (.var 0) (.var 1)) (.add (.add (.num 3 1) (.mul (.num 5 1) (.var 1))) (.mul (.num 2 1) (.pow (.var 1) 2)))) (.add (.num 1 1) (.mul (.num 2 1) (.var 0)))))))))) (.mul (.add (.num 1 1) (.mul (.num 2 1) (.var 1))) (.add (.add (.add (.num 6 1) (.mul (.num 13 1) (.var 1))) (.mul (.num 9 1) (.pow (.var 1) 2))) (.mul (.num 2 1) (.pow (.var 1) 3)))),
  .div (.mul (.mul (.mul (.mul (.neg (.num 2 1)) (.sqrt (.num 3 1))) (.var 1)) (.sqrt (.div (.mul (.add (.num 1 1) (.var 0)) (.add (.add (.num 3 1) (.mul (.num 5 1) (.var 1))) (.mul (.num 2 1) (.pow (.var 1) 2)))) (.mul (.var 1) (.add (.add (.num 10 1) (.mul (.num 9 1) (.var 1))) (.mul (.num 2 1) (.pow (.var 1) 2))))))) (.sub (.add (.add (.add (.mul (.neg (.num 12 1)) (.sqrt (.div (.mul (.var 0) (.add (.num 3 1) (.mul (.num 2 1) (.var 1)))) (.add (.add (.num 1 1) (.mul (.num 3 1) (.var 1))) (.mul (.num 2 1) (.pow (.var 1) 2)))))) (.sqrt (.div (.mul (.var 0) (.add (.add (.num 3 1) (.mul (.num 8 1) (.var 1))) (.mul (.num 4 1) (.pow (.var 1) 2)))) (.add (.num 1 1) (.var 1))))) (.sqrt (.mul (.var 0) (.add (.add (.add (.num 3 1) (.mul (.num 11 1) (.var 1))) (.mul (.num 12 1) (.pow (.var 1) 2))) (.mul (.num 4 1) (.pow (.var 1) 3)))))) (.mul (.mul (.num 2 1) (.pow (.var 1) 2)) (.add (.mul (.num 9 1) (.sqrt (.div (.mul (.var 0) (.add (.num 3 1) (.mul (.num 2 1) (.var 1)))) (.add (.add (.num 1 1) (.mul (.num 3 1) (.var 1))) (.mul (.num 2 1) (.pow (.var 1) 2)))))) (.sqrt (.div (.mul (.var 0) (.add (.add (.num 3 1) (.mul (.num 8 1) (.var 1))) (.mul (.num 4 1) (.pow (.var 1) 2)))) (.add (.num 1 1) (.var 1))))))) (.mul (.var 1) (.add (.add (.mul (.num 3 1) (.sqrt (.div (.mul (.var 0) (.add (.num 3 1) (.mul (.num 2 1) (.var 1)))) (.add (.add (.num 1 1) (.mul (.num 3 1) (.var 1))) (.mul (.num 2 1) (.pow (.var 1) 2)))))) (.mul (.num 9 1) (.sqrt (.div (.mul (.var 0) (.add (.add (.num 3 1) (.mul (.num 8 1) (.var 1))) (.mul (.num 4 1) (.pow (.var 1) 2)))) (.add (.num 1 1) (.var 1)))))) (.mul (.num 2 1) (.sqrt (.mul (.var 0) (.add (.add (.add (.num 3 1) (.mul (.num 11 1) (.var 1))) (.mul (.num 12 1) (.pow (.var 1) 2))) (.mul (.num 4 1) (.pow (.var 1) 3)))))))))) (.mul (.add (.num 1 1) (.mul (.num 2 1) (.var 0))) (.add (.add (.add (.num 6 1) (.mul (.num 13 1) (.var 1))) (.mul (.num 9 1) (.pow (.var 1) 2))) (.mul (.num 2 1) (.pow (.var 1) 3)))),
  .div (.mul (.mul (.neg (.num 2 1)) (.sqrt (.mul (.mul (.var 0) (.add (.num 1 1) (.var 0))) (.add (.add (.num 3 1) (.mul (.num 5 1) (.var 1))) (.mul (.num 2 1) (.pow (.var 1) 2)))))) (.sub (.add (.add (.add (.add (.add (.sub (.add (.mul (.num 96 1) (.sqrt (.div (.mul (.mul (.add (.num 1 1) (.mul (.num 2 1) (.var 0))) (.var 1)) (.add (.add (.num 9 1) (.mul (.num 9 1) (.var 1))) (.mul (.num 2 1) (.pow (.var 1) 2)))) (.add (.num 2 1) (.var 1))))) (.mul (.mul (.num 41 1) (.var 1)) (.sqrt (.div (.mul (.mul (.add (.num 1 1) (.mul (.num 2 1) (.var 0))) (.var 1)) (.add (.add (.num 9 1) (.mul (.num 9 1) (.var 1))) (.mul (.num 2 1) (.pow (.var 1) 2)))) (.add (.num 2 1) (.var 1)))))) (.mul (.mul (.num 14 1) (.pow (.var 1) 2)) (.sqrt (.div (.mul (.mul (.add (.num 1 1) (.mul (.num 2 1) (.var 0))) (.var 1)) (.add (.add (.num 9 1) (.mul (.num 9 1) (.var 1))) (.mul (.num 2 1) (.pow (.var 1) 2)))) (.add (.num 2 1) (.var 1)))))) (.mul (.pow (.var 1) 3) (.sqrt (.div (.mul (.mul (.add (.num 1 1) (.mul (.num 2 1) (.var 0))) (.var 1)) (.add (.add (.num 9 1) (.mul (.num 9 1) (.var 1))) (.mul (.num 2 1) (.pow (.var 1) 2)))) (.add (.num 2 1) (.var 1)))))) (.mul (.mul (.num 2 1) (.pow (.var 1) 4)) (.sqrt (.div (.mul (.mul (.add (.num 1 1) (.mul (.num 2 1) (.var 0))) (.var 1)) (.add (.add (.num 9 1) (.mul (.num 9 1) (.var 1))) (.mul (.num 2 1) (.pow (.var 1) 2)))) (.add (.num 2 1) (.var 1)))))) (.mul (.num 81 1) (.sqrt (.div (.mul (.mul (.add (.num 1 1) (.mul (.num 2 1) (.var 0))) (.pow (.var 1) 3)) (.add (.add (.num 9 1) (.mul (.num 9 1) (.var 1))) (.mul (.num 2 1) (.pow (.var 1) 2)))) (.add (.num 2 1) (.var 1)))))) (.mul (.num 81 1) (.sqrt (.div (.mul (.mul (.add (.num 1 1) (.mul (.num 2 1) (.var 0))) (.pow (.var 1) 5)) (.add (.add (.num 9 1) (.mul (.num 9 1) (.var 1))) (.mul (.num 2 1) (.pow (.var 1) 2)))) (.add (.num 2 1) (.var 1)))))) (.mul (.num 18 1) (.sqrt (.div (.mul (.mul (.add (.num 1 1) (.mul (.num 2 1) (.var 0))) (.pow (.var 1) 7)) (.add (.add (.num 9 1) (.mul (.num 9 1) (.var 1))) (.mul (.num 2 1) (.pow (.var 1) 2)))) (.add (.num 2 1) (.var 1)))))) (.mul (.num 18 1) (.sqrt (.mul (.mul (.add (.num 1 1) (.mul (.num 2 1) (.var 0))) (.var 1)) (.add (.add (.add (.num 18 1) (.mul (.num 27 1) (.var 1))) (.mul (.num 13 1) (.pow (.var 1) 2))) (.mul (.num 2 1) (.pow (.var 1) 3)))))))) (.mul (.mul (.mul (.hpow (.add (.num 1 1) (.mul (.num 2 1) (.var 0))) 1) (.add (.num 1 1) (.var 1))) (.pow (.add (.num 2 1) (.var 1)) 2)) (.add (.add (.add (.num 45 1) (.mul (.num 63 1) (.var 1))) (.mul (.num 28 1) (.pow (.var 1) 2))) (.mul (.num 4 1) (.pow (.var 1) 3)))),
  .div (.mul (.mul (.neg (.num 2 1)) (.sqrt (.num 6 1))) (.sub (.add (.add (.sqrt (.div (.mul (.var 0) (.add (.add (.num 1 1) (.mul (.num 3 1) (.var 1))) (.mul (.num 2 1) (.pow (.var 1) 2)))) (.mul (.add (.num 1 1) (.mul (.num 2 1) (.var 0))) (.add (.add (.num 15 1) (.mul (.num 16 1) (.var 1))) (.mul (.num 4 1) (.pow (.var 1) 2)))))) (.mul (.num 3 1) (.sqrt (.div (.mul (.var 0) (.add (.add (.add (.num 3 1) (.mul (.num 11 1) (.var 1))) (.mul (.num 12 1) (.pow (.var 1) 2))) (.mul (.num 4 1) (.pow (.var 1) 3)))) (.mul (.add (.num 1 1) (.mul (.num 2 1) (.var 0))) (.add (.num 5 1) (.mul (.num 2 1) (.var 1)))))))) (.mul (.mul (.num 2 1) (.pow (.var 1) 2)) (.add (.add (.sqrt (.div (.mul (.var 0) (.add (.add (.num 1 1) (.mul (.num 3 1) (.var 1))) (.mul (.num 2 1) (.pow (.var 1) 2)))) (.mul (.add (.num 1 1) (.mul (.num 2 1) (.var 0))) (.add (.add (.num 15 1) (.mul (.num 16 1) (.var 1))) (.mul (.num 4 1) (.pow (.var 1) 2)))))) (.mul (.num 3 1) (.sqrt (.div (.mul (.var 0) (.add (.num 1 1) (.mul (.num 2 1) (.var 1)))) (.mul (.add (.num 1 1) (.mul (.num 2 1) (.var 0))) (.add (.add (.add (.num 15 1) (.mul (.num 31 1) (.var 1))) (.mul (.num 20 1) (.pow (.var 1) 2))) (.mul (.num 4 1) (.pow (.var 1) 3)))))))) (.mul (.num 6 1) (.sqrt (.div (.var 0) (.mul (.add (.num 1 1) (.mul (.num 2 1) (.var 0))) (.add (.add (.add (.add (.num 15 1) (.mul (.num 61 1) (.var 1))) (.mul (.num 82 1) (.pow (.var 1) 2))) (.mul (.num 44 1) (.pow (.var 1) 3))) (.mul (.num 8 1) (.pow (.var 1) 4)))))))))) (.mul (.var 1) (.add (.add (.add (.mul (.num 9 1) (.sqrt (.div (.mul (.var 0) (.add (.add (.num 1 1) (.mul (.num 3 1) (.var 1))) (.mul (.num 2 1) (.pow (.var 1) 2)))) (.mul (.add (.num 1 1) (.mul (.num 2 1) (.var 0))) (.add (.add (.num 15 1) (.mul (.num 16 1) (.var 1))) (.mul (.num 4 1) (.pow (.var 1) 2))))))) (.sqrt (.div (.mul (.var 0) (.add (.add (.add (.num 3 1) (.mul (.num 11 1) (.var 1))) (.mul (.num 12 1) (.pow (.var 1) 2))) (.mul (.num 4 1) (.pow (.var 1) 3)))) (.mul (.add (.num 1 1) (.mul (.num 2 1) (.var 0))) (.add (.num 5 1) (.mul (.num 2 1) (.var 1))))))) (.mul (.num 9 1) (.sqrt (.div (.mul (.var 0) (.add (.num 1 1) (.mul (.num 2 1) (.var 1)))) (.mul (.add (.num 1 1) (.mul (.num 2 1) (.var 0))) (.add (.add (.add (.num 15 1) (.mul (.num 31 1) (.var 1))) (.mul (.num 20 1) (.pow (.var 1) 2))) (.mul (.num 4 1) (.pow (.var 1) 3)))))))) (.mul (.num 6 1) (.sqrt (.div (.var 0) (.mul (.add (.num 1 1) (.mul (.num 2 1) (.var 0))) (.add (.add (.add (.add (.num 15 1) (.mul (.num 61 1) (.var 1))) (.mul (.num 82 1) (.pow (.var 1) 2))) (.mul (.num 44 1) (.pow (.var 1) 3))) (.mul (.num 8 1) (.pow (.var 1) 4))))))))))) (.mul (.add (.num 2 1) (.var 1)) (.sqrt (.div (.mul (.add (.num 1 1) (.mul (.num 2 1) (.var 0))) (.add (.add (.num 10 1) (.mul (.num 9 1) (.var 1))) (.mul (.num 2 1) (.pow (.var 1) 2)))) (.add (.num 1 1) (.var 0))))),
  .mul (.mul (.sqrt (.num 2 1)) (.sqrt (.div (.mul (.add (.num 1 1) (.var 0)) (.add (.add (.num 3 1) (.mul (.num 5 1) (.var 1))) (.mul (.num 2 1) (.pow (.var 1) 2)))) (.add (.num 1 1) (.mul (.num 2 1) (.var 0)))))) (.sub (.sub (.sub (.add (.mul (.mul (.neg (.num 2 1)) (.add (.neg (.num 3 1)) (.var 1))) (.sqrt (.div (.mul (.mul (.var 0) (.pow (.add (.num 1 1) (.mul (.num 2 1) (.var 1))) 2)) (.add (.num 3 1) (.mul (.num 2 1) (.var 1)))) (.mul (.mul (.mul (.add (.num 1 1) (.mul (.num 2 1) (.var 0))) (.pow (.add (.num 2 1) (.var 1)) 3)) (.pow (.add (.num 3 1) (.var 1)) 2)) (.pow (.add (.num 5 1) (.mul (.num 2 1) (.var 1))) 2))))) (.div (.num 2 1) (.sqrt (.div (.mul (.mul (.mul (.add (.num 1 1) (.mul (.num 2 1) (.var 0))) (.add (.num 2 1) (.var 1))) (.pow (.add (.num 3 1) (.var 1)) 2)) (.pow (.add (.num 5 1) (.mul (.num 2 1) (.var 1))) 2)) (.mul (.mul (.var 0) (.pow (.add (.num 1 1) (.mul (.num 2 1) (.var 1))) 2)) (.add (.num 3 1) (.mul (.num 2 1) (.var 1)))))))) (.mul (.mul (.num 12 1) (.add (.neg (.num 1 1)) (.mul (.num 3 1) (.var 1)))) (.sqrt (.div (.mul (.var 0) (.pow (.add (.num 1 1) (.mul (.num 2 1) (.var 1))) 2)) (.mul (.mul (.mul (.mul (.add (.num 1 1) (.mul (.num 2 1) (.var 0))) (.pow (.add (.num 2 1) (.var 1)) 3)) (.pow (.add (.num 3 1) (.var 1)) 2)) (.add (.num 3 1) (.mul (.num 2 1) (.var 1)))) (.pow (.add (.add (.num 5 1) (.mul (.num 7 1) (.var 1))) (.mul (.num 2 1) (.pow (.var 1) 2))) 2)))))) (.mul (.mul (.mul (.num 18 1) (.add (.neg (.num 1 1)) (.var 1))) (.add (.num 1 1) (.mul (.num 2 1) (.var 1)))) (.sqrt (.div (.var 0) (.mul (.mul (.mul (.add (.num 1 1) (.mul (.num 2 1) (.var 0))) (.pow (.add (.num 2 1) (.var 1)) 3)) (.add (.num 3 1) (.mul (.num 2 1) (.var 1)))) (.pow (.add (.add (.num 15 1) (.mul (.num 11 1) (.var 1))) (.mul (.num 2 1) (.pow (.var 1) 2))) 2)))))) (.div (.mul (.mul (.num 60 1) (.var 1)) (.sqrt (.div (.var 0) (.mul (.mul (.add (.num 1 1) (.mul (.num 2 1) (.var 0))) (.pow (.add (.num 2 1) (.var 1)) 3)) (.add (.num 3 1) (.mul (.num 2 1) (.var 1))))))) (.add (.add (.add (.num 15 1) (.mul (.num 26 1) (.var 1))) (.mul (.num 13 1) (.pow (.var 1) 2))) (.mul (.num 2 1) (.pow (.var 1) 3))))),
  .div (.mul (.neg (.num 2 1)) (.add (.add (.add (.mul (.mul (.num 4 1) (.pow (.var 1) 3)) (.add (.sqrt (.div (.mul (.var 0) (.add (.num 2 1) (.var 1))) (.mul (.add (.num 1 1) (.mul (.num 2 1) (.var 0))) (.add (.num 5 1) (.mul (.num 2 1) (.var 1)))))) (.mul (.num 6 1) (.sqrt (.div (.var 0) (.mul (.add (.num 1 1) (.mul (.num 2 1) (.var 0))) (.add (.add (.num 10 1) (.mul (.num 9 1) (.var 1))) (.mul (.num 2 1) (.pow (.var 1) 2))))))))) (.mul (.mul (.num 12 1) (.pow (.var 1) 2)) (.add (.sqrt (.div (.mul (.var 0) (.add (.num 2 1) (.var 1))) (.mul (.add (.num 1 1) (.mul (.num 2 1) (.var 0))) (.add (.num 5 1) (.mul (.num 2 1) (.var 1)))))) (.mul (.num 12 1) (.sqrt (.div (.var 0) (.mul (.add (.num 1 1) (.mul (.num 2 1) (.var 0))) (.add (.add (.num 10 1) (.mul (.num 9 1) (.var 1))) (.mul (.num 2 1) (.pow (.var 1) 2)))))))))) (.mul (.num 3 1) (.add (.sqrt (.div (.mul (.var 0) (.add (.num 2 1) (.var 1))) (.mul (.add (.num 1 1) (.mul (.num 2 1) (.var 0))) (.add (.num 5 1) (.mul (.num 2 1) (.var 1)))))) (.mul (.num 68 1) (.sqrt (.div (.var 0) (.mul (.add (.num 1 1) (.mul (.num 2 1) (.var 0))) (.add (.add (.num 10 1) (.mul (.num 9 1) (.var 1))) (.mul (.num 2 1) (.pow (.var 1) 2)))))))))) (.mul (.var 1) (.add (.mul (.num 11 1) (.sqrt (.div (.mul (.var 0) (.add (.num 2 1) (.var 1))) (.mul (.add (.num 1 1) (.mul (.num 2 1) (.var 0))) (.add (.num 5 1) (.mul (.num 2 1) (.var 1))))))) (.mul (.num 294 1) (.sqrt (.div (.var 0) (.mul (.add (.num 1 1) (.mul (.num 2 1) (.var 0))) (.add (.add (.num 10 1) (.mul (.num 9 1) (.var 1))) (.mul (.num 2 1) (.pow (.var 1) 2))))))))))) (.mul (.sqrt (.div (.mul (.add (.num 1 1) (.mul (.num 2 1) (.var 0))) (.add (.add (.num 10 1) (.mul (.num 9 1) (.var 1))) (.mul (.num 2 1) (.pow (.var 1) 2)))) (.add (.num 1 1) (.var 0)))) (.add (.add (.num 21 1) (.mul (.num 13 1) (.var 1))) (.mul (.num 2 1) (.pow (.var 1) 2)))),
  .div (.sqrt (.div (.sub (.num 9 1) (.mul (.num 4 1) (.pow (.var 1) 2))) (.sub (.num 1 1) (.mul (.num 4 1) (.pow (.var 1) 2))))) (.add (.num 1 1) (.mul (.num 2 1) (.var 0))),
  .neg (.sqrt (.div (.sub (.num 9 1) (.mul (.num 4 1) (.pow (.var 1) 2))) (.sub (.num 1 1) (.mul (.num 4 1) (.pow (.var 1) 2))))),
  .div (.mul (.mul (.sqrt (.num 2 1)) (.sqrt (.mul (.add (.num 1 1) (.mul (.num 2 1) (.var 0))) (.add (.add (.num 3 1) (.mul (.num 5 1) (.var 1))) (.mul (.num 2 1) (.pow (.var 1) 2)))))) (.add (.sub (.sub (.mul (.mul (.num 2 1) (.var 0)) (.sqrt (.div (.add (.num 1 1) (.var 1)) (.mul (.mul (.pow (.add (.num 1 1) (.mul (.num 2 1) (.var 0))) 3) (.var 1)) (.add (.num 1 1) (.mul (.num 2 1) (.var 1))))))) (.mul (.num 2 1) (.sqrt (.div (.add (.var 1) (.pow (.var 1) 2)) (.add (.add (.add (.num 1 1) (.mul (.num 2 1) (.var 0))) (.mul (.num 2 1) (.var 1))) (.mul (.mul (.num 4 1) (.var 0)) (.var 1))))))) (.sqrt (.div (.add (.num 1 1) (.var 1)) (.mul (.add (.num 1 1) (.mul (.num 2 1) (.var 0))) (.add (.var 1) (.mul (.num 2 1) (.pow (.var 1) 2))))))) (.mul (.mul (.num 2 1) (.var 1)) (.sqrt (.div (.add (.num 1 1) (.var 1)) (.mul (.add (.num 1 1) (.mul (.num 2 1) (.var 0))) (.add (.var 1) (.mul (.num 2 1) (.pow (.var 1) 2))))))))) (.hpow (.add (.num 1 1) (.var 1)) 1),
  .div (.mul (.sqrt (.mul (.add (.num 1 1) (.var 0)) (.add (.add (.num 3 1) (.mul (.num 5 1) (.var 1))) (.mul (.num 2 1) (.pow (.var 1) 2))))) (.add (.sub (.sub (.div (.mul (.mul (.sqrt (.num 2 1)) (.add (.neg (.num 4 1)) (.var 1))) (.add (.neg (.num 1 1)) (.var 1))) (.mul (.mul (.add (.num 1 1) (.var 1)) (.sqrt (.div (.mul (.mul (.mul (.add (.num 1 1) (.var 0)) (.add (.neg (.num 1 1)) (.var 1))) (.var 1)) (.add (.num 2 1) (.var 1))) (.add (.neg (.num 1 1)) (.mul (.num 2 1) (.var 1)))))) (.add (.num 1 1) (.mul (.num 2 1) (.var 1))))) (.div (.mul (.mul (.mul (.num 2 1) (.var 0)) (.add (.neg (.num 4 1)) (.var 1))) (.add (.neg (.num 1 1)) (.var 1))) (.mul (.mul (.add (.num 1 1) (.mul (.num 2 1) (.var 0))) (.add (.num 1 1) (.mul (.num 2 1) (.var 1)))) (.sqrt (.div (.mul (.mul (.mul (.mul (.add (.num 1 1) (.var 0)) (.add (.neg (.num 1 1)) (.var 1))) (.var 1)) (.pow (.add (.num 1 1) (.var 1)) 2)) (.add (.num 2 1) (.var 1))) (.add (.neg (.num 2 1)) (.mul (.num 4 1) (.var 1)))))))) (.div (.mul (.num 12 1) (.var 0)) (.mul (.mul (.add (.num 1 1) (.mul (.num 2 1) (.var 0))) (.add (.num 1 1) (.mul (.num 2 1) (.var 1)))) (.sqrt (.div (.mul (.mul (.mul (.add (.num 1 1) (.var 0)) (.var 1)) (.pow (.add (.num 1 1) (.var 1)) 2)) (.add (.num 2 1) (.var 1))) (.add (.sub (.num 2 1) (.mul (.num 6 1) (.var 1))) (.mul (.num 4 1) (.pow (.var 1) 2)))))))) (.div (.num 6 1) (.sqrt (.div (.mul (.mul (.mul (.mul (.add (.num 1 1) (.var 0)) (.var 1)) (.pow (.add (.num 1 1) (.var 1)) 2)) (.add (.num 2 1) (.var 1))) (.pow (.add (.num 1 1) (.mul (.num 2 1) (.var 1))) 2)) (.add (.sub (.num 2 1) (.mul (.num 6 1) (.var 1))) (.mul (.num 4 1) (.pow (.var 1) 2)))))))) (.sqrt (.num 2 1)),
  .div (.num 1 1) (.sqrt (.div (.mul (.mul (.var 1) (.add (.num 1 1) (.var 1))) (.add (.num 1 1) (.mul (.num 2 1) (.var 1)))) (.add (.num 6 1) (.mul (.num 4 1) (.var 1))))),
  .neg (.div (.mul (.sqrt (.mul (.add (.num 1 1) (.var 0)) (.add (.add (.num 3 1) (.mul (.num 5 1) (.var 1))) (.mul (.num 2 1) (.pow (.var 1) 2))))) (.add (.add (.add (.div (.mul (.mul (.num 2 1) (.add (.neg (.num 4 1)) (.var 1))) (.add (.neg (.num 1 1)) (.var 1))) (.sqrt (.div (.mul (.mul (.mul (.mul (.mul (.mul (.add (.num 1 1) (.var 0)) (.pow (.add (.num 3 1) (.mul (.num 2 1) (.var 0))) 2)) (.add (.neg (.num 1 1)) (.var 1))) (.var 1)) (.pow (.add (.num 1 1) (.var 1)) 2)) (.add (.num 2 1) (.var 1))) (.pow (.add (.num 1 1) (.mul (.num 2 1) (.var 1))) 2)) (.add (.neg (.num 2 1)) (.mul (.num 4 1) (.var 1)))))) (.div (.mul (.mul (.mul (.add (.num 1 1) (.mul (.num 2 1) (.var 0))) (.add (.neg (.num 4 1)) (.var 1))) (.add (.neg (.num 1 1)) (.var 1))) (.sqrt (.add (.neg (.num 2 1)) (.mul (.num 4 1) (.var 1))))) (.mul (.mul (.add (.num 3 1) (.mul (.num 2 1) (.var 0))) (.sqrt (.mul (.mul (.add (.num 1 1) (.var 0)) (.var 1)) (.add (.add (.neg (.num 2 1)) (.var 1)) (.pow (.var 1) 2))))) (.add (.add (.num 1 1) (.mul (.num 3 1) (.var 1))) (.mul (.num 2 1) (.pow (.var 1) 2)))))) (.div (.mul (.num 6 1) (.add (.num 1 1) (.mul (.num 2 1) (.var 0)))) (.mul (.mul (.add (.num 3 1) (.mul (.num 2 1) (.var 0))) (.add (.add (.num 1 1) (.mul (.num 3 1) (.var 1))) (.mul (.num 2 1) (.pow (.var 1) 2)))) (.sqrt (.div (.mul (.mul (.add (.num 1 1) (.var 0)) (.var 1)) (.add (.num 2 1) (.var 1))) (.add (.sub (.num 2 1) (.mul (.num 6 1) (.var 1))) (.mul (.num 4 1) (.pow (.var 1) 2)))))))) (.div (.num 12 1) (.sqrt (.div (.mul (.mul (.mul (.mul (.mul (.add (.num 1 1) (.var 0)) (.pow (.add (.num 3 1) (.mul (.num 2 1) (.var 0))) 2)) (.var 1)) (.pow (.add (.num 1 1) (.var 1)) 2)) (.add (.num 2 1) (.var 1))) (.pow (.add (.num 1 1) (.mul (.num 2 1) (.var 1))) 2)) (.add (.sub (.num 2 1) (.mul (.num 6 1) (.var 1))) (.mul (.num 4 1) (.pow (.var 1) 2)))))))) (.sqrt (.num 2 1))),
  .div (.mul (.sqrt (.num 6 1)) (.sqrt (.neg (.div (.num 1 1) (.mul (.add (.num 1 1) (.var 1)) (.sub (.var 1) (.mul (.num 4 1) (.pow (.var 1) 3)))))))) (.add (.num 1 1) (.mul (.num 2 1) (.var 0))),
  .div (.mul (.sqrt (.mul (.add (.num 1 1) (.var 0)) (.add (.add (.num 3 1) (.mul (.num 5 1) (.var 1))) (.mul (.num 2 1) (.pow (.var 1) 2))))) (.sub (.add (.add (.add (.sub (.div (.mul (.mul (.mul (.neg (.num 12 1)) (.sqrt (.num 6 1))) (.var 0)) (.add (.neg (.num 1 1)) (.var 1))) (.mul (.mul (.add (.num 1 1) (.mul (.num 2 1) (.var 0))) (.add (.num 1 1) (.var 1))) (.sqrt (.div (.mul (.mul (.mul (.add (.num 1 1) (.var 0)) (.var 1)) (.add (.add (.num 2 1) (.mul (.num 5 1) (.var 1))) (.mul (.num 2 1) (.pow (.var 1) 2)))) (.add (.add (.num 3 1) (.mul (.num 5 1) (.var 1))) (.mul (.num 2 1) (.pow (.var 1) 2)))) (.add (.neg (.num 1 1)) (.mul (.num 2 1) (.var 1))))))) (.div (.mul (.mul (.mul (.mul (.num 2 1) (.sqrt (.num 6 1))) (.var 0)) (.pow (.sub (.num 1 1) (.mul (.num 2 1) (.var 1))) 2)) (.add (.neg (.num 4 1)) (.var 1))) (.mul (.mul (.add (.num 1 1) (.mul (.num 2 1) (.var 0))) (.add (.num 1 1) (.var 1))) (.sqrt (.mul (.mul (.mul (.add (.num 1 1) (.var 0)) (.var 1)) (.add (.add (.num 2 1) (.mul (.num 5 1) (.var 1))) (.mul (.num 2 1) (.pow (.var 1) 2)))) (.add (.add (.add (.neg (.num 3 1)) (.var 1)) (.mul (.num 8 1) (.pow (.var 1) 2))) (.mul (.num 4 1) (.pow (.var 1) 3)))))))) (.div (.mul (.mul (.mul (.mul (.mul (.num 4 1) (.sqrt (.num 6 1))) (.var 0)) (.add (.neg (.num 1 1)) (.var 1))) (.var 1)) (.add (.neg (.num 1 1)) (.mul (.num 2 1) (.var 1)))) (.mul (.mul (.add (.num 1 1) (.mul (.num 2 1) (.var 0))) (.add (.num 1 1) (.var 1))) (.sqrt (.mul (.mul (.mul (.add (.num 1 1) (.var 0)) (.var 1)) (.add (.add (.num 2 1) (.mul (.num 5 1) (.var 1))) (.mul (.num 2 1) (.pow (.var 1) 2)))) (.add (.add (.add (.neg (.num 3 1)) (.var 1)) (.mul (.num 8 1) (.pow (.var 1) 2))) (.mul (.num 4 1) (.pow (.var 1) 3)))))))) (.mul (.mul (.num 6 1) (.sqrt (.num 6 1))) (.sqrt (.div (.mul (.pow (.add (.neg (.num 1 1)) (.var 1)) 2) (.add (.neg (.num 1 1)) (.mul (.num 2 1) (.var 1)))) (.mul (.mul (.mul (.add (.num 1 1) (.var 0)) (.var 1)) (.pow (.add (.num 1 1) (.var 1)) 3)) (.add (.add (.add (.num 6 1) (.mul (.num 19 1) (.var 1))) (.mul (.num 16 1) (.pow (.var 1) 2))) (.mul (.num 4 1) (.pow (.var 1) 3)))))))) (.div (.mul (.mul (.sqrt (.num 6 1)) (.add (.neg (.num 4 1)) (.var 1))) (.add (.neg (.num 1 1)) (.mul (.num 2 1) (.var 1)))) (.mul (.add (.num 1 1) (.var 1)) (.sqrt (.div (.mul (.mul (.mul (.add (.num 1 1) (.var 0)) (.var 1)) (.add (.num 1 1) (.var 1))) (.add (.add (.add (.num 6 1) (.mul (.num 19 1) (.var 1))) (.mul (.num 16 1) (.pow (.var 1) 2))) (.mul (.num 4 1) (.pow (.var 1) 3)))) (.add (.neg (.num 1 1)) (.mul (.num 2 1) (.var 1)))))))) (.div (.mul (.mul (.mul (.mul (.num 2 1) (.sqrt (.num 6 1))) (.add (.neg (.num 1 1)) (.var 1))) (.var 1)) (.add (.neg (.num 1 1)) (.mul (.num 2 1) (.var 1)))) (.sqrt (.mul (.mul (.mul (.add (.num 1 1) (.var 0)) (.var 1)) (.pow (.add (.num 1 1) (.var 1)) 3)) (.add (.add (.add (.sub (.neg (.num 6 1)) (.mul (.num 7 1) (.var 1))) (.mul (.num 22 1) (.pow (.var 1) 2))) (.mul (.num 28 1) (.pow (.var 1) 3))) (.mul (.num 8 1) (.pow (.var 1) 4)))))))) (.sqrt (.num 2 1)),
  .mul (.sqrt (.mul (.add (.num 1 1) (.var 0)) (.add (.add (.num 3 1) (.mul (.num 5 1) (.var 1))) (.mul (.num 2 1) (.pow (.var 1) 2))))) (.sub (.sub (.add (.add (.sub (.div (.mul (.num 36 1) (.sqrt (.div (.mul (.var 1) (.add (.neg (.num 1 1)) (.mul (.num 2 1) (.var 1)))) (.mul (.mul (.add (.num 1 1) (.var 0)) (.pow (.add (.num 1 1) (.var 1)) 3)) (.add (.add (.add (.num 10 1) (.mul (.num 29 1) (.var 1))) (.mul (.num 20 1) (.pow (.var 1) 2))) (.mul (.num 4 1) (.pow (.var 1) 3))))))) (.add (.num 3 1) (.mul (.num 2 1) (.var 1)))) (.div (.mul (.mul (.num 72 1) (.var 0)) (.sqrt (.div (.mul (.var 1) (.add (.neg (.num 1 1)) (.mul (.num 2 1) (.var 1)))) (.mul (.mul (.add (.num 1 1) (.var 0)) (.pow (.add (.num 3 1) (.mul (.num 2 1) (.var 1))) 2)) (.add (.add (.add (.add (.num 10 1) (.mul (.num 39 1) (.var 1))) (.mul (.num 49 1) (.pow (.var 1) 2))) (.mul (.num 24 1) (.pow (.var 1) 3))) (.mul (.num 4 1) (.pow (.var 1) 4))))))) (.mul (.add (.num 1 1) (.mul (.num 2 1) (.var 0))) (.add (.num 1 1) (.var 1))))) (.mul (.mul (.mul (.num 9 1) (.add (.neg (.num 3 1)) (.mul (.num 2 1) (.var 1)))) (.add (.neg (.num 1 1)) (.mul (.num 2 1) (.var 1)))) (.sqrt (.div (.var 1) (.mul (.mul (.mul (.add (.num 1 1) (.var 0)) (.pow (.add (.num 1 1) (.var 1)) 3)) (.pow (.add (.num 3 1) (.mul (.num 2 1) (.var 1))) 2)) (.add (.add (.add (.sub (.neg (.num 10 1)) (.mul (.num 9 1) (.var 1))) (.mul (.num 38 1) (.pow (.var 1) 2))) (.mul (.num 36 1) (.pow (.var 1) 3))) (.mul (.num 8 1) (.pow (.var 1) 4)))))))) (.div (.mul (.mul (.var 1) (.add (.neg (.num 1 1)) (.mul (.num 2 1) (.var 1)))) (.add (.sub (.num 1 1) (.mul (.num 9 1) (.var 1))) (.mul (.num 2 1) (.pow (.var 1) 2)))) (.sqrt (.mul (.mul (.mul (.mul (.add (.num 1 1) (.var 0)) (.var 1)) (.pow (.add (.num 1 1) (.var 1)) 3)) (.pow (.add (.num 3 1) (.mul (.num 2 1) (.var 1))) 2)) (.add (.add (.add (.sub (.neg (.num 10 1)) (.mul (.num 9 1) (.var 1))) (.mul (.num 38 1) (.pow (.var 1) 2))) (.mul (.num 36 1) (.pow (.var 1) 3))) (.mul (.num 8 1) (.pow (.var 1) 4))))))) (.div (.mul (.mul (.mul (.mul (.num 18 1) (.var 0)) (.add (.neg (.num 3 1)) (.mul (.num 2 1) (.var 1)))) (.add (.neg (.num 1 1)) (.mul (.num 2 1) (.var 1)))) (.sqrt (.div (.var 1) (.mul (.mul (.add (.num 1 1) (.var 0)) (.pow (.add (.num 3 1) (.mul (.num 2 1) (.var 1))) 2)) (.add (.add (.add (.add (.sub (.neg (.num 10 1)) (.mul (.num 19 1) (.var 1))) (.mul (.num 29 1) (.pow (.var 1) 2))) (.mul (.num 74 1) (.pow (.var 1) 3))) (.mul (.num 44 1) (.pow (.var 1) 4))) (.mul (.num 8 1) (.pow (.var 1) 5))))))) (.mul (.add (.num 1 1) (.mul (.num 2 1) (.var 0))) (.add (.num 1 1) (.var 1))))) (.div (.mul (.mul (.mul (.mul (.num 2 1) (.var 0)) (.var 1)) (.add (.neg (.num 1 1)) (.mul (.num 2 1) (.var 1)))) (.add (.sub (.num 1 1) (.mul (.num 9 1) (.var 1))) (.mul (.num 2 1) (.pow (.var 1) 2)))) (.mul (.mul (.mul (.add (.num 1 1) (.mul (.num 2 1) (.var 0))) (.add (.num 1 1) (.var 1))) (.add (.num 3 1) (.mul (.num 2 1) (.var 1)))) (.sqrt (.mul (.mul (.add (.num 1 1) (.var 0)) (.var 1)) (.add (.add (.add (.add (.sub (.neg (.num 10 1)) (.mul (.num 19 1) (.var 1))) (.mul (.num 29 1) (.pow (.var 1) 2))) (.mul (.num 74 1) (.pow (.var 1) 3))) (.mul (.num 44 1) (.pow (.var 1) 4))) (.mul (.num 8 1) (.pow (.var 1) 5)))))))),
  .neg (.mul (.sqrt (.num 6 1)) (.sqrt (.neg (.div (.num 1 1) (.mul (.add (.num 1 1) (.var 1)) (.sub (.var 1) (.mul (.num 4 1) (.pow (.var 1) 3)))))))),
  .neg (.div (.mul (.sqrt (.mul (.add (.num 1 1) (.var 0)) (.add (.add (.num 3 1) (.mul (.num 5 1) (.var 1))) (.mul (.num 2 1) (.pow (.var 1) 2))))) (.sub (.sub (.add (.add (.add (.div (.mul (.mul (.num 12 1) (.sqrt (.num 6 1))) (.add (.neg (.num 1 1)) (.var 1))) (.mul (.mul (.add (.num 3 1) (.mul (.num 2 1) (.var 0))) (.add (.num 1 1) (.var 1))) (.sqrt (.div (.mul (.mul (.mul (.add (.num 1 1) (.var 0)) (.var 1)) (.add (.add (.num 2 1) (.mul (.num 5 1) (.var 1))) (.mul (.num 2 1) (.pow (.var 1) 2)))) (.add (.add (.num 3 1) (.mul (.num 5 1) (.var 1))) (.mul (.num 2 1) (.pow (.var 1) 2)))) (.add (.neg (.num 1 1)) (.mul (.num 2 1) (.var 1))))))) (.div (.mul (.mul (.mul (.num 2 1) (.sqrt (.num 6 1))) (.pow (.sub (.num 1 1) (.mul (.num 2 1) (.var 1))) 2)) (.add (.neg (.num 4 1)) (.var 1))) (.mul (.mul (.add (.num 3 1) (.mul (.num 2 1) (.var 0))) (.add (.num 1 1) (.var 1))) (.sqrt (.mul (.mul (.mul (.add (.num 1 1) (.var 0)) (.var 1)) (.add (.add (.num 2 1) (.mul (.num 5 1) (.var 1))) (.mul (.num 2 1) (.pow (.var 1) 2)))) (.add (.add (.add (.neg (.num 3 1)) (.var 1)) (.mul (.num 8 1) (.pow (.var 1) 2))) (.mul (.num 4 1) (.pow (.var 1) 3)))))))) (.div (.mul (.mul (.mul (.mul (.num 6 1) (.sqrt (.num 6 1))) (.add (.num 1 1) (.mul (.num 2 1) (.var 0)))) (.add (.neg (.num 1 1)) (.var 1))) (.sqrt (.div (.add (.neg (.num 1 1)) (.mul (.num 2 1) (.var 1))) (.mul (.mul (.mul (.add (.num 1 1) (.var 0)) (.pow (.add (.num 3 1) (.mul (.num 2 1) (.var 0))) 2)) (.var 1)) (.add (.add (.add (.num 6 1) (.mul (.num 19 1) (.var 1))) (.mul (.num 16 1) (.pow (.var 1) 2))) (.mul (.num 4 1) (.pow (.var 1) 3))))))) (.hpow (.add (.num 1 1) (.var 1)) 1))) (.div (.mul (.mul (.mul (.sqrt (.num 6 1)) (.add (.num 1 1) (.mul (.num 2 1) (.var 0)))) (.add (.neg (.num 4 1)) (.var 1))) (.add (.neg (.num 1 1)) (.mul (.num 2 1) (.var 1)))) (.mul (.add (.num 1 1) (.var 1)) (.sqrt (.div (.mul (.mul (.mul (.mul (.add (.num 1 1) (.var 0)) (.pow (.add (.num 3 1) (.mul (.num 2 1) (.var 0))) 2)) (.var 1)) (.add (.num 1 1) (.var 1))) (.add (.add (.add (.num 6 1) (.mul (.num 19 1) (.var 1))) (.mul (.num 16 1) (.pow (.var 1) 2))) (.mul (.num 4 1) (.pow (.var 1) 3)))) (.add (.neg (.num 1 1)) (.mul (.num 2 1) (.var 1)))))))) (.div (.mul (.mul (.mul (.mul (.mul (.num 2 1) (.sqrt (.num 6 1))) (.add (.num 1 1) (.mul (.num 2 1) (.var 0)))) (.add (.neg (.num 1 1)) (.var 1))) (.var 1)) (.add (.neg (.num 1 1)) (.mul (.num 2 1) (.var 1)))) (.mul (.mul (.add (.num 3 1) (.mul (.num 2 1) (.var 0))) (.hpow (.add (.num 1 1) (.var 1)) 1)) (.sqrt (.mul (.mul (.add (.num 1 1) (.var 0)) (.var 1)) (.add (.add (.add (.sub (.neg (.num 6 1)) (.mul (.num 7 1) (.var 1))) (.mul (.num 22 1) (.pow (.var 1) 2))) (.mul (.num 28 1) (.pow (.var 1) 3))) (.mul (.num 8 1) (.pow (.var 1) 4)))))))) (.div (.mul (.mul (.mul (.mul (.num 4 1) (.sqrt (.num 6 1))) (.add (.neg (.num 1 1)) (.var 1))) (.var 1)) (.add (.neg (.num 1 1)) (.mul (.num 2 1) (.var 1)))) (.sqrt (.mul (.mul (.mul (.mul (.add (.num 1 1) (.var 0)) (.pow (.add (.num 3 1) (.mul (.num 2 1) (.var 0))) 2)) (.var 1)) (.pow (.add (.num 1 1) (.var 1)) 3)) (.add (.add (.add (.sub (.neg (.num 6 1)) (.mul (.num 7 1) (.var 1))) (.mul (.num 22 1) (.pow (.var 1) 2))) (.mul (.num 28 1) (.pow (.var 1) 3))) (.mul (.num 8 1) (.pow (.var 1) 4)))))))) (.sqrt (.num 2 1))),
  .neg (.mul (.sqrt (.mul (.add (.num 1 1) (.var 0)) (.add (.add (.num 3 1) (.mul (.num 5 1) (.var 1))) (.mul (.num 2 1) (.pow (.var 1) 2))))) (.add (.add (.add (.add (.add (.mul (.num 36 1) (.sqrt (.div (.mul (.mul (.pow (.add (.num 1 1) (.mul (.num 2 1) (.var 0))) 2) (.var 1)) (.add (.neg (.num 1 1)) (.mul (.num 2 1) (.var 1)))) (.mul (.mul (.mul (.mul (.add (.num 1 1) (.var 0)) (.pow (.add (.num 3 1) (.mul (.num 2 1) (.var 0))) 2)) (.pow (.add (.num 1 1) (.var 1)) 3)) (.pow (.add (.num 3 1) (.mul (.num 2 1) (.var 1))) 2)) (.add (.add (.add (.num 10 1) (.mul (.num 29 1) (.var 1))) (.mul (.num 20 1) (.pow (.var 1) 2))) (.mul (.num 4 1) (.pow (.var 1) 3))))))) (.div (.mul (.num 72 1) (.sqrt (.div (.mul (.var 1) (.add (.neg (.num 1 1)) (.mul (.num 2 1) (.var 1)))) (.mul (.add (.num 1 1) (.var 0)) (.add (.add (.add (.add (.num 10 1) (.mul (.num 39 1) (.var 1))) (.mul (.num 49 1) (.pow (.var 1) 2))) (.mul (.num 24 1) (.pow (.var 1) 3))) (.mul (.num 4 1) (.pow (.var 1) 4))))))) (.mul (.add (.num 1 1) (.var 1)) (.add (.add (.add (.num 9 1) (.mul (.num 6 1) (.var 0))) (.mul (.num 6 1) (.var 1))) (.mul (.mul (.num 4 1) (.var 0)) (.var 1)))))) (.mul (.mul (.mul (.num 18 1) (.add (.neg (.num 3 1)) (.mul (.num 2 1) (.var 1)))) (.add (.neg (.num 1 1)) (.mul (.num 2 1) (.var 1)))) (.sqrt (.div (.var 1) (.mul (.mul (.mul (.mul (.add (.num 1 1) (.var 0)) (.pow (.add (.num 3 1) (.mul (.num 2 1) (.var 0))) 2)) (.pow (.add (.num 1 1) (.var 1)) 3)) (.pow (.add (.num 3 1) (.mul (.num 2 1) (.var 1))) 2)) (.add (.add (.add (.sub (.neg (.num 10 1)) (.mul (.num 9 1) (.var 1))) (.mul (.num 38 1) (.pow (.var 1) 2))) (.mul (.num 36 1) (.pow (.var 1) 3))) (.mul (.num 8 1) (.pow (.var 1) 4)))))))) (.mul (.mul (.mul (.num 9 1) (.add (.neg (.num 3 1)) (.mul (.num 2 1) (.var 1)))) (.add (.neg (.num 1 1)) (.mul (.num 2 1) (.var 1)))) (.sqrt (.div (.mul (.pow (.add (.num 1 1) (.mul (.num 2 1) (.var 0))) 2) (.var 1)) (.mul (.mul (.mul (.mul (.add (.num 1 1) (.var 0)) (.pow (.add (.num 3 1) (.mul (.num 2 1) (.var 0))) 2)) (.pow (.add (.num 1 1) (.var 1)) 3)) (.pow (.add (.num 3 1) (.mul (.num 2 1) (.var 1))) 2)) (.add (.add (.add (.sub (.neg (.num 10 1)) (.mul (.num 9 1) (.var 1))) (.mul (.num 38 1) (.pow (.var 1) 2))) (.mul (.num 36 1) (.pow (.var 1) 3))) (.mul (.num 8 1) (.pow (.var 1) 4)))))))) (.div (.mul (.mul (.mul (.add (.num 1 1) (.mul (.num 2 1) (.var 0))) (.var 1)) (.add (.neg (.num 1 1)) (.mul (.num 2 1) (.var 1)))) (.add (.sub (.num 1 1) (.mul (.num 9 1) (.var 1))) (.mul (.num 2 1) (.pow (.var 1) 2)))) (.mul (.mul (.mul (.add (.num 3 1) (.mul (.num 2 1) (.var 0))) (.hpow (.add (.num 1 1) (.var 1)) 1)) (.add (.num 3 1) (.mul (.num 2 1) (.var 1)))) (.sqrt (.mul (.mul (.add (.num 1 1) (.var 0)) (.var 1)) (.add (.add (.add (.sub (.neg (.num 10 1)) (.mul (.num 9 1) (.var 1))) (.mul (.num 38 1) (.pow (.var 1) 2))) (.mul (.num 36 1) (.pow (.var 1) 3))) (.mul (.num 8 1) (.pow (.var 1) 4)))))))) (.div (.mul (.mul (.mul (.num 2 1) (.var 1)) (.add (.neg (.num 1 1)) (.mul (.num 2 1) (.var 1)))) (.add (.sub (.num 1 1) (.mul (.num 9 1) (.var 1))) (.mul (.num 2 1) (.pow (.var 1) 2)))) (.mul (.mul (.mul (.add (.num 3 1) (.mul (.num 2 1) (.var 0))) (.add (.num 1 1) (.var 1))) (.add (.num 3 1) (.mul (.num 2 1) (.var 1)))) (.sqrt (.mul (.mul (.add (.num 1 1) (.var 0)) (.var 1)) (.add (.add (.add (.add (.sub (.neg (.num 10 1)) (.mul (.num 19 1) (.var 1))) (.mul (.num 29 1) (.pow (.var 1) 2))) (.mul (.num 74 1) (.pow (.var 1) 3))) (.mul (.num 44 1) (.pow (.var 1) 4))) (.mul (.num 8 1) (.pow (.var 1) 5))))))))),
  .div (.num 3 1) (.mul (.mul (.add (.num 1 1) (.mul (.num 2 1) (.var 0))) (.add (.num 1 1) (.var 1))) (.add (.num 1 1) (.mul (.num 2 1) (.var 1)))),
  .div (.mul (.sqrt (.mul (.add (.num 1 1) (.var 0)) (.add (.add (.num 3 1) (.mul (.num 5 1) (.var 1))) (.mul (.num 2 1) (.pow (.var 1) 2))))) (.add (.add (.sub (.sub (.add (.sub (.sub (.div (.mul (.mul (.mul (.mul (.num 2 1) (.sqrt (.num 6 1))) (.var 0)) (.var 1)) (.add (.neg (.num 1 1)) (.mul (.num 2 1) (.var 1)))) (.mul (.mul (.add (.num 1 1) (.mul (.num 2 1) (.var 0))) (.add (.num 2 1) (.var 1))) (.sqrt (.div (.mul (.mul (.mul (.add (.num 1 1) (.var 0)) (.var 1)) (.add (.add (.num 5 1) (.mul (.num 7 1) (.var 1))) (.mul (.num 2 1) (.pow (.var 1) 2)))) (.add (.add (.num 6 1) (.mul (.num 7 1) (.var 1))) (.mul (.num 2 1) (.pow (.var 1) 2)))) (.add (.num 1 1) (.mul (.num 2 1) (.var 1))))))) (.mul (.mul (.mul (.mul (.num 2 1) (.sqrt (.num 6 1))) (.var 1)) (.add (.sub (.num 1 1) (.mul (.num 9 1) (.var 1))) (.mul (.num 2 1) (.pow (.var 1) 2)))) (.sqrt (.div (.mul (.pow (.var 0) 2) (.add (.num 1 1) (.mul (.num 2 1) (.var 1)))) (.mul (.mul (.mul (.mul (.add (.num 1 1) (.var 0)) (.pow (.add (.num 1 1) (.mul (.num 2 1) (.var 0))) 2)) (.var 1)) (.pow (.add (.add (.num 2 1) (.mul (.num 3 1) (.var 1))) (.pow (.var 1) 2)) 3)) (.add (.add (.num 15 1) (.mul (.num 16 1) (.var 1))) (.mul (.num 4 1) (.pow (.var 1) 2)))))))) (.div (.mul (.mul (.mul (.mul (.num 24 1) (.sqrt (.num 6 1))) (.var 0)) (.add (.neg (.num 1 1)) (.mul (.num 2 1) (.var 1)))) (.sqrt (.div (.var 1) (.mul (.mul (.add (.num 1 1) (.var 0)) (.add (.add (.num 5 1) (.mul (.num 12 1) (.var 1))) (.mul (.num 4 1) (.pow (.var 1) 2)))) (.add (.add (.add (.num 6 1) (.mul (.num 13 1) (.var 1))) (.mul (.num 9 1) (.pow (.var 1) 2))) (.mul (.num 2 1) (.pow (.var 1) 3))))))) (.mul (.add (.num 1 1) (.mul (.num 2 1) (.var 0))) (.add (.add (.num 2 1) (.mul (.num 3 1) (.var 1))) (.pow (.var 1) 2))))) (.div (.mul (.mul (.mul (.num 9 1) (.sqrt (.num 6 1))) (.pow (.var 1) 2)) (.add (.neg (.num 3 1)) (.mul (.num 2 1) (.var 1)))) (.mul (.add (.add (.num 2 1) (.mul (.num 3 1) (.var 1))) (.pow (.var 1) 2)) (.sqrt (.mul (.mul (.mul (.add (.num 1 1) (.var 0)) (.var 1)) (.add (.add (.num 5 1) (.mul (.num 12 1) (.var 1))) (.mul (.num 4 1) (.pow (.var 1) 2)))) (.add (.add (.add (.num 6 1) (.mul (.num 13 1) (.var 1))) (.mul (.num 9 1) (.pow (.var 1) 2))) (.mul (.num 2 1) (.pow (.var 1) 3)))))))) (.div (.mul (.mul (.mul (.mul (.num 18 1) (.sqrt (.num 6 1))) (.var 0)) (.pow (.var 1) 2)) (.add (.neg (.num 3 1)) (.mul (.num 2 1) (.var 1)))) (.mul (.mul (.add (.num 1 1) (.mul (.num 2 1) (.var 0))) (.add (.add (.num 2 1) (.mul (.num 3 1) (.var 1))) (.pow (.var 1) 2))) (.sqrt (.mul (.mul (.mul (.add (.num 1 1) (.var 0)) (.var 1)) (.add (.add (.num 5 1) (.mul (.num 12 1) (.var 1))) (.mul (.num 4 1) (.pow (.var 1) 2)))) (.add (.add (.add (.num 6 1) (.mul (.num 13 1) (.var 1))) (.mul (.num 9 1) (.pow (.var 1) 2))) (.mul (.num 2 1) (.pow (.var 1) 3)))))))) (.div (.mul (.mul (.sqrt (.num 6 1)) (.var 1)) (.add (.neg (.num 1 1)) (.mul (.num 2 1) (.var 1)))) (.sqrt (.div (.mul (.mul (.mul (.add (.num 1 1) (.var 0)) (.var 1)) (.pow (.add (.num 2 1) (.var 1)) 3)) (.add (.add (.add (.num 15 1) (.mul (.num 31 1) (.var 1))) (.mul (.num 20 1) (.pow (.var 1) 2))) (.mul (.num 4 1) (.pow (.var 1) 3)))) (.add (.num 1 1) (.mul (.num 2 1) (.var 1))))))) (.mul (.mul (.num 12 1) (.sqrt (.num 6 1))) (.sqrt (.div (.mul (.pow (.sub (.num 1 1) (.mul (.num 2 1) (.var 1))) 2) (.var 1)) (.mul (.mul (.add (.num 1 1) (.var 0)) (.pow (.add (.add (.num 2 1) (.mul (.num 3 1) (.var 1))) (.pow (.var 1) 2)) 3)) (.add (.add (.add (.num 15 1) (.mul (.num 46 1) (.var 1))) (.mul (.num 36 1) (.pow (.var 1) 2))) (.mul (.num 8 1) (.pow (.var 1) 3)))))))) (.div (.mul (.mul (.mul (.sqrt (.num 6 1)) (.var 1)) (.add (.num 1 1) (.mul (.num 2 1) (.var 1)))) (.add (.sub (.num 1 1) (.mul (.num 9 1) (.var 1))) (.mul (.num 2 1) (.pow (.var 1) 2)))) (.mul (.add (.add (.num 2 1) (.mul (.num 3 1) (.var 1))) (.pow (.var 1) 2)) (.sqrt (.mul (.mul (.add (.num 1 1) (.var 0)) (.var 1)) (.add (.add (.add (.add (.add (.num 30 1) (.mul (.num 137 1) (.var 1))) (.mul (.num 225 1) (.pow (.var 1) 2))) (.mul (.num 170 1) (.pow (.var 1) 3))) (.mul (.num 60 1) (.pow (.var 1) 4))) (.mul (.num 8 1) (.pow (.var 1) 5))))))))) (.sqrt (.num 2 1)),
  .mul (.sqrt (.mul (.add (.num 1 1) (.var 0)) (.add (.add (.num 3 1) (.mul (.num 5 1) (.var 1))) (.mul (.num 2 1) (.pow (.var 1) 2))))) (.sub (.sub (.sub (.add (.add (.add (.sub (.div (.mul (.num 60 1) (.sqrt (.div (.var 1) (.mul (.mul (.add (.num 1 1) (.var 0)) (.pow (.add (.num 2 1) (.var 1)) 3)) (.add (.add (.num 9 1) (.mul (.num 9 1) (.var 1))) (.mul (.num 2 1) (.pow (.var 1) 2))))))) (.add (.add (.num 5 1) (.mul (.num 7 1) (.var 1))) (.mul (.num 2 1) (.pow (.var 1) 2)))) (.mul (.num 120 1) (.sqrt (.div (.mul (.pow (.var 0) 2) (.var 1)) (.mul (.mul (.mul (.mul (.add (.num 1 1) (.var 0)) (.pow (.add (.num 1 1) (.mul (.num 2 1) (.var 0))) 2)) (.pow (.add (.num 2 1) (.var 1)) 3)) (.pow (.add (.add (.num 5 1) (.mul (.num 7 1) (.var 1))) (.mul (.num 2 1) (.pow (.var 1) 2))) 2)) (.add (.add (.num 9 1) (.mul (.num 9 1) (.var 1))) (.mul (.num 2 1) (.pow (.var 1) 2)))))))) (.div (.mul (.mul (.mul (.num 9 1) (.add (.neg (.num 1 1)) (.var 1))) (.var 1)) (.add (.num 1 1) (.mul (.num 2 1) (.var 1)))) (.mul (.mul (.hpow (.add (.num 2 1) (.var 1)) 1) (.add (.add (.num 5 1) (.mul (.num 7 1) (.var 1))) (.mul (.num 2 1) (.pow (.var 1) 2)))) (.sqrt (.mul (.mul (.add (.num 1 1) (.var 0)) (.var 1)) (.add (.add (.num 9 1) (.mul (.num 9 1) (.var 1))) (.mul (.num 2 1) (.pow (.var 1) 2)))))))) (.div (.mul (.add (.neg (.num 3 1)) (.var 1)) (.var 1)) (.sqrt (.div (.mul (.mul (.mul (.mul (.add (.num 1 1) (.var 0)) (.var 1)) (.pow (.add (.num 2 1) (.var 1)) 3)) (.pow (.add (.num 5 1) (.mul (.num 2 1) (.var 1))) 2)) (.add (.add (.num 9 1) (.mul (.num 9 1) (.var 1))) (.mul (.num 2 1) (.pow (.var 1) 2)))) (.pow (.add (.num 1 1) (.mul (.num 2 1) (.var 1))) 2))))) (.div (.mul (.mul (.num 18 1) (.var 1)) (.add (.neg (.num 1 1)) (.mul (.num 3 1) (.var 1)))) (.mul (.mul (.add (.num 5 1) (.mul (.num 2 1) (.var 1))) (.add (.add (.num 2 1) (.mul (.num 3 1) (.var 1))) (.pow (.var 1) 2))) (.sqrt (.mul (.mul (.add (.num 1 1) (.var 0)) (.var 1)) (.add (.add (.add (.num 18 1) (.mul (.num 27 1) (.var 1))) (.mul (.num 13 1) (.pow (.var 1) 2))) (.mul (.num 2 1) (.pow (.var 1) 3)))))))) (.div (.mul (.mul (.mul (.num 18 1) (.add (.neg (.num 1 1)) (.var 1))) (.var 1)) (.add (.var 0) (.mul (.mul (.num 2 1) (.var 0)) (.var 1)))) (.mul (.mul (.mul (.add (.num 1 1) (.mul (.num 2 1) (.var 0))) (.add (.num 2 1) (.var 1))) (.add (.add (.num 5 1) (.mul (.num 7 1) (.var 1))) (.mul (.num 2 1) (.pow (.var 1) 2)))) (.sqrt (.mul (.mul (.add (.num 1 1) (.var 0)) (.var 1)) (.add (.add (.add (.num 18 1) (.mul (.num 27 1) (.var 1))) (.mul (.num 13 1) (.pow (.var 1) 2))) (.mul (.num 2 1) (.pow (.var 1) 3)))))))) (.div (.mul (.mul (.mul (.mul (.num 2 1) (.var 0)) (.add (.neg (.num 3 1)) (.var 1))) (.var 1)) (.add (.num 1 1) (.mul (.num 2 1) (.var 1)))) (.mul (.mul (.add (.num 1 1) (.mul (.num 2 1) (.var 0))) (.add (.add (.num 10 1) (.mul (.num 9 1) (.var 1))) (.mul (.num 2 1) (.pow (.var 1) 2)))) (.sqrt (.mul (.mul (.add (.num 1 1) (.var 0)) (.var 1)) (.add (.add (.add (.num 18 1) (.mul (.num 27 1) (.var 1))) (.mul (.num 13 1) (.pow (.var 1) 2))) (.mul (.num 2 1) (.pow (.var 1) 3)))))))) (.div (.mul (.mul (.mul (.num 36 1) (.var 0)) (.var 1)) (.add (.neg (.num 1 1)) (.mul (.num 3 1) (.var 1)))) (.mul (.mul (.mul (.add (.num 1 1) (.mul (.num 2 1) (.var 0))) (.add (.num 1 1) (.var 1))) (.add (.add (.num 10 1) (.mul (.num 9 1) (.var 1))) (.mul (.num 2 1) (.pow (.var 1) 2)))) (.sqrt (.mul (.mul (.add (.num 1 1) (.var 0)) (.var 1)) (.add (.add (.add (.num 18 1) (.mul (.num 27 1) (.var 1))) (.mul (.num 13 1) (.pow (.var 1) 2))) (.mul (.num 2 1) (.pow (.var 1) 3)))))))),
  .div (.neg (.num 3 1)) (.add (.add (.num 1 1) (.mul (.num 3 1) (.var 1))) (.mul (.num 2 1) (.pow (.var 1) 2))),
  .neg (.mul (.mul (.sqrt (.num 3 1)) (.sqrt (.mul (.add (.num 1 1) (.var 0)) (.add (.add (.num 3 1) (.mul (.num 5 1) (.var 1))) (.mul (.num 2 1) (.pow (.var 1) 2)))))) (.add (.add (.add (.add (.sub (.sub (.add (.div (.mul (.mul (.num 2 1) (.add (.sub (.num 1 1) (.mul (.num 9 1) (.var 1))) (.mul (.num 2 1) (.pow (.var 1) 2)))) (.sqrt (.div (.mul (.var 1) (.add (.num 1 1) (.mul (.num 2 1) (.var 1)))) (.mul (.add (.num 1 1) (.var 0)) (.add (.add (.num 15 1) (.mul (.num 16 1) (.var 1))) (.mul (.num 4 1) (.pow (.var 1) 2))))))) (.mul (.add (.num 3 1) (.mul (.num 2 1) (.var 0))) (.hpow (.add (.add (.num 2 1) (.mul (.num 3 1) (.var 1))) (.pow (.var 1) 2)) 1))) (.div (.mul (.mul (.add (.num 1 1) (.mul (.num 2 1) (.var 0))) (.add (.sub (.num 1 1) (.mul (.num 9 1) (.var 1))) (.mul (.num 2 1) (.pow (.var 1) 2)))) (.sqrt (.div (.mul (.var 1) (.add (.num 1 1) (.mul (.num 2 1) (.var 1)))) (.mul (.add (.num 1 1) (.var 0)) (.add (.add (.num 15 1) (.mul (.num 16 1) (.var 1))) (.mul (.num 4 1) (.pow (.var 1) 2))))))) (.mul (.add (.num 3 1) (.mul (.num 2 1) (.var 0))) (.hpow (.add (.add (.num 2 1) (.mul (.num 3 1) (.var 1))) (.pow (.var 1) 2)) 1)))) (.mul (.mul (.var 1) (.add (.neg (.num 1 1)) (.mul (.num 2 1) (.var 1)))) (.sqrt (.div (.mul (.pow (.add (.num 1 1) (.mul (.num 2 1) (.var 0))) 2) (.add (.num 1 1) (.mul (.num 2 1) (.var 1)))) (.mul (.mul (.mul (.mul (.add (.num 1 1) (.var 0)) (.pow (.add (.num 3 1) (.mul (.num 2 1) (.var 0))) 2)) (.var 1)) (.pow (.add (.num 2 1) (.var 1)) 3)) (.add (.add (.add (.num 15 1) (.mul (.num 31 1) (.var 1))) (.mul (.num 20 1) (.pow (.var 1) 2))) (.mul (.num 4 1) (.pow (.var 1) 3)))))))) (.div (.mul (.mul (.num 2 1) (.var 1)) (.add (.neg (.num 1 1)) (.mul (.num 2 1) (.var 1)))) (.sqrt (.div (.mul (.mul (.mul (.mul (.add (.num 1 1) (.var 0)) (.pow (.add (.num 3 1) (.mul (.num 2 1) (.var 0))) 2)) (.var 1)) (.pow (.add (.num 2 1) (.var 1)) 3)) (.add (.add (.add (.num 15 1) (.mul (.num 31 1) (.var 1))) (.mul (.num 20 1) (.pow (.var 1) 2))) (.mul (.num 4 1) (.pow (.var 1) 3)))) (.add (.num 1 1) (.mul (.num 2 1) (.var 1))))))) (.mul (.num 12 1) (.sqrt (.div (.mul (.mul (.pow (.add (.num 1 1) (.mul (.num 2 1) (.var 0))) 2) (.pow (.sub (.num 1 1) (.mul (.num 2 1) (.var 1))) 2)) (.var 1)) (.mul (.mul (.mul (.add (.num 1 1) (.var 0)) (.pow (.add (.num 3 1) (.mul (.num 2 1) (.var 0))) 2)) (.pow (.add (.add (.num 2 1) (.mul (.num 3 1) (.var 1))) (.pow (.var 1) 2)) 3)) (.add (.add (.add (.num 15 1) (.mul (.num 46 1) (.var 1))) (.mul (.num 36 1) (.pow (.var 1) 2))) (.mul (.num 8 1) (.pow (.var 1) 3)))))))) (.div (.mul (.num 24 1) (.add (.neg (.num 1 1)) (.mul (.num 2 1) (.var 1)))) (.mul (.mul (.add (.num 3 1) (.mul (.num 2 1) (.var 0))) (.hpow (.add (.add (.num 2 1) (.mul (.num 3 1) (.var 1))) (.pow (.var 1) 2)) 1)) (.sqrt (.div (.mul (.add (.num 1 1) (.var 0)) (.add (.add (.add (.num 15 1) (.mul (.num 46 1) (.var 1))) (.mul (.num 36 1) (.pow (.var 1) 2))) (.mul (.num 8 1) (.pow (.var 1) 3)))) (.var 1)))))) (.div (.mul (.mul (.num 18 1) (.pow (.var 1) 2)) (.add (.neg (.num 3 1)) (.mul (.num 2 1) (.var 1)))) (.mul (.mul (.add (.num 3 1) (.mul (.num 2 1) (.var 0))) (.add (.add (.num 2 1) (.mul (.num 3 1) (.var 1))) (.pow (.var 1) 2))) (.sqrt (.mul (.mul (.add (.num 1 1) (.var 0)) (.var 1)) (.add (.add (.add (.add (.add (.num 30 1) (.mul (.num 137 1) (.var 1))) (.mul (.num 225 1) (.pow (.var 1) 2))) (.mul (.num 170 1) (.pow (.var 1) 3))) (.mul (.num 60 1) (.pow (.var 1) 4))) (.mul (.num 8 1) (.pow (.var 1) 5)))))))) (.div (.mul (.mul (.mul (.num 9 1) (.add (.num 1 1) (.mul (.num 2 1) (.var 0)))) (.pow (.var 1) 2)) (.add (.neg (.num 3 1)) (.mul (.num 2 1) (.var 1)))) (.mul (.mul (.add (.num 3 1) (.mul (.num 2 1) (.var 0))) (.add (.add (.num 2 1) (.mul (.num 3 1) (.var 1))) (.pow (.var 1) 2))) (.sqrt (.mul (.mul (.add (.num 1 1) (.var 0)) (.var 1)) (.add (.add (.add (.add (.add (.num 30 1) (.mul (.num 137 1) (.var 1))) (.mul (.num 225 1) (.pow (.var 1) 2))) (.mul (.num 170 1) (.pow (.var 1) 3))) (.mul (.num 60 1) (.pow (.var 1) 4))) (.mul (.num 8 1) (.pow (.var 1) 5))))))))),
  .neg (.mul (.sqrt (.mul (.add (.num 1 1) (.var 0)) (.add (.add (.num 3 1) (.mul (.num 5 1) (.var 1))) (.mul (.num 2 1) (.pow (.var 1) 2))))) (.add (.add (.add (.add (.add (.add (.add (.mul (.num 60 1) (.sqrt (.div (.mul (.pow (.add (.num 1 1) (.mul (.num 2 1) (.var 0))) 2) (.var 1)) (.mul (.mul (.mul (.mul (.add (.num 1 1) (.var 0)) (.pow (.add (.num 3 1) (.mul (.num 2 1) (.var 0))) 2)) (.pow (.add (.num 2 1) (.var 1)) 3)) (.pow (.add (.add (.num 5 1) (.mul (.num 7 1) (.var 1))) (.mul (.num 2 1) (.pow (.var 1) 2))) 2)) (.add (.add (.num 9 1) (.mul (.num 9 1) (.var 1))) (.mul (.num 2 1) (.pow (.var 1) 2))))))) (.div (.mul (.mul (.mul (.num 2 1) (.add (.neg (.num 3 1)) (.var 1))) (.var 1)) (.add (.num 1 1) (.mul (.num 2 1) (.var 1)))) (.mul (.mul (.mul (.add (.num 3 1) (.mul (.num 2 1) (.var 0))) (.hpow (.add (.num 2 1) (.var 1)) 1)) (.add (.num 5 1) (.mul (.num 2 1) (.var 1)))) (.sqrt (.mul (.mul (.add (.num 1 1) (.var 0)) (.var 1)) (.add (.add (.num 9 1) (.mul (.num 9 1) (.var 1))) (.mul (.num 2 1) (.pow (.var 1) 2)))))))) (.div (.mul (.mul (.mul (.add (.num 1 1) (.mul (.num 2 1) (.var 0))) (.add (.neg (.num 3 1)) (.var 1))) (.var 1)) (.add (.num 1 1) (.mul (.num 2 1) (.var 1)))) (.mul (.mul (.mul (.add (.num 3 1) (.mul (.num 2 1) (.var 0))) (.hpow (.add (.num 2 1) (.var 1)) 1)) (.add (.num 5 1) (.mul (.num 2 1) (.var 1)))) (.sqrt (.mul (.mul (.add (.num 1 1) (.var 0)) (.var 1)) (.add (.add (.num 9 1) (.mul (.num 9 1) (.var 1))) (.mul (.num 2 1) (.pow (.var 1) 2)))))))) (.div (.mul (.mul (.mul (.num 18 1) (.add (.num 1 1) (.mul (.num 2 1) (.var 0)))) (.var 1)) (.add (.neg (.num 1 1)) (.mul (.num 3 1) (.var 1)))) (.mul (.mul (.mul (.add (.num 3 1) (.mul (.num 2 1) (.var 0))) (.hpow (.add (.num 2 1) (.var 1)) 1)) (.add (.add (.num 5 1) (.mul (.num 7 1) (.var 1))) (.mul (.num 2 1) (.pow (.var 1) 2)))) (.sqrt (.mul (.mul (.add (.num 1 1) (.var 0)) (.var 1)) (.add (.add (.num 9 1) (.mul (.num 9 1) (.var 1))) (.mul (.num 2 1) (.pow (.var 1) 2)))))))) (.div (.num 120 1) (.sqrt (.div (.mul (.mul (.mul (.mul (.add (.num 1 1) (.var 0)) (.pow (.add (.num 3 1) (.mul (.num 2 1) (.var 0))) 2)) (.pow (.add (.num 2 1) (.var 1)) 3)) (.pow (.add (.add (.num 5 1) (.mul (.num 7 1) (.var 1))) (.mul (.num 2 1) (.pow (.var 1) 2))) 2)) (.add (.add (.num 9 1) (.mul (.num 9 1) (.var 1))) (.mul (.num 2 1) (.pow (.var 1) 2)))) (.var 1))))) (.div (.mul (.mul (.mul (.num 18 1) (.add (.neg (.num 1 1)) (.var 1))) (.var 1)) (.add (.num 1 1) (.mul (.num 2 1) (.var 1)))) (.mul (.mul (.mul (.add (.num 3 1) (.mul (.num 2 1) (.var 0))) (.add (.num 5 1) (.mul (.num 2 1) (.var 1)))) (.add (.add (.num 2 1) (.mul (.num 3 1) (.var 1))) (.pow (.var 1) 2))) (.sqrt (.mul (.mul (.add (.num 1 1) (.var 0)) (.var 1)) (.add (.add (.add (.num 18 1) (.mul (.num 27 1) (.var 1))) (.mul (.num 13 1) (.pow (.var 1) 2))) (.mul (.num 2 1) (.pow (.var 1) 3)))))))) (.div (.mul (.mul (.mul (.mul (.num 9 1) (.add (.num 1 1) (.mul (.num 2 1) (.var 0)))) (.add (.neg (.num 1 1)) (.var 1))) (.var 1)) (.add (.num 1 1) (.mul (.num 2 1) (.var 1)))) (.mul (.mul (.mul (.add (.num 3 1) (.mul (.num 2 1) (.var 0))) (.add (.num 5 1) (.mul (.num 2 1) (.var 1)))) (.add (.add (.num 2 1) (.mul (.num 3 1) (.var 1))) (.pow (.var 1) 2))) (.sqrt (.mul (.mul (.add (.num 1 1) (.var 0)) (.var 1)) (.add (.add (.add (.num 18 1) (.mul (.num 27 1) (.var 1))) (.mul (.num 13 1) (.pow (.var 1) 2))) (.mul (.num 2 1) (.pow (.var 1) 3)))))))) (.div (.mul (.mul (.num 36 1) (.var 1)) (.add (.neg (.num 1 1)) (.mul (.num 3 1) (.var 1)))) (.mul (.mul (.mul (.add (.num 3 1) (.mul (.num 2 1) (.var 0))) (.add (.num 5 1) (.mul (.num 2 1) (.var 1)))) (.add (.add (.num 2 1) (.mul (.num 3 1) (.var 1))) (.pow (.var 1) 2))) (.sqrt (.mul (.mul (.add (.num 1 1) (.var 0)) (.var 1)) (.add (.add (.add (.num 18 1) (.mul (.num 27 1) (.var 1))) (.mul (.num 13 1) (.pow (.var 1) 2))) (.mul (.num 2 1) (.pow (.var 1) 3))))))))),
  .neg (.mul (.mul (.sqrt (.num 6 1)) (.sqrt (.mul (.add (.num 1 1) (.var 0)) (.add (.add (.num 3 1) (.mul (.num 5 1) (.var 1))) (.mul (.num 2 1) (.pow (.var 1) 2)))))) (.add (.sub (.add (.sub (.add (.add (.sub (.add (.sub (.mul (.add (.neg (.num 1 1)) (.mul (.num 2 1) (.var 1))) (.sqrt (.div (.add (.num 1 1) (.mul (.num 2 1) (.var 1))) (.mul (.mul (.add (.num 1 1) (.var 0)) (.pow (.add (.num 2 1) (.var 1)) 3)) (.pow (.add (.num 5 1) (.mul (.num 2 1) (.var 1))) 2))))) (.mul (.mul (.num 2 1) (.add (.neg (.num 1 1)) (.mul (.num 2 1) (.var 1)))) (.sqrt (.div (.mul (.pow (.var 0) 2) (.add (.num 1 1) (.mul (.num 2 1) (.var 1)))) (.mul (.mul (.mul (.add (.num 1 1) (.var 0)) (.pow (.add (.num 1 1) (.mul (.num 2 1) (.var 0))) 2)) (.pow (.add (.num 2 1) (.var 1)) 3)) (.pow (.add (.num 5 1) (.mul (.num 2 1) (.var 1))) 2)))))) (.div (.mul (.num 2 1) (.var 0)) (.mul (.add (.num 1 1) (.mul (.num 2 1) (.var 0))) (.sqrt (.div (.mul (.mul (.add (.num 1 1) (.var 0)) (.add (.num 2 1) (.var 1))) (.pow (.add (.num 5 1) (.mul (.num 2 1) (.var 1))) 2)) (.add (.num 1 1) (.mul (.num 2 1) (.var 1)))))))) (.div (.sqrt (.div (.add (.num 1 1) (.mul (.num 2 1) (.var 1))) (.add (.add (.add (.num 2 1) (.mul (.num 2 1) (.var 0))) (.var 1)) (.mul (.var 0) (.var 1))))) (.add (.num 5 1) (.mul (.num 2 1) (.var 1))))) (.mul (.sub (.add (.neg (.num 1 1)) (.mul (.num 9 1) (.var 1))) (.mul (.num 2 1) (.pow (.var 1) 2))) (.sqrt (.div (.add (.num 1 1) (.mul (.num 2 1) (.var 1))) (.mul (.mul (.add (.num 1 1) (.var 0)) (.pow (.add (.num 2 1) (.var 1)) 3)) (.pow (.add (.add (.num 15 1) (.mul (.num 16 1) (.var 1))) (.mul (.num 4 1) (.pow (.var 1) 2))) 2)))))) (.mul (.mul (.num 2 1) (.add (.sub (.num 1 1) (.mul (.num 9 1) (.var 1))) (.mul (.num 2 1) (.pow (.var 1) 2)))) (.sqrt (.div (.mul (.pow (.var 0) 2) (.add (.num 1 1) (.mul (.num 2 1) (.var 1)))) (.mul (.mul (.mul (.add (.num 1 1) (.var 0)) (.pow (.add (.num 1 1) (.mul (.num 2 1) (.var 0))) 2)) (.pow (.add (.num 2 1) (.var 1)) 3)) (.pow (.add (.add (.num 15 1) (.mul (.num 16 1) (.var 1))) (.mul (.num 4 1) (.pow (.var 1) 2))) 2)))))) (.mul (.mul (.num 3 1) (.add (.neg (.num 3 1)) (.mul (.num 2 1) (.var 1)))) (.sqrt (.div (.mul (.pow (.var 1) 2) (.add (.num 1 1) (.mul (.num 2 1) (.var 1)))) (.mul (.mul (.add (.num 1 1) (.var 0)) (.pow (.add (.num 2 1) (.var 1)) 3)) (.pow (.add (.add (.add (.num 15 1) (.mul (.num 31 1) (.var 1))) (.mul (.num 20 1) (.pow (.var 1) 2))) (.mul (.num 4 1) (.pow (.var 1) 3))) 2)))))) (.div (.mul (.mul (.mul (.num 6 1) (.var 0)) (.var 1)) (.add (.neg (.num 3 1)) (.mul (.num 2 1) (.var 1)))) (.mul (.mul (.mul (.add (.num 1 1) (.mul (.num 2 1) (.var 0))) (.hpow (.add (.num 2 1) (.var 1)) 1)) (.sqrt (.div (.add (.num 1 1) (.var 0)) (.add (.num 1 1) (.mul (.num 2 1) (.var 1)))))) (.add (.add (.add (.num 15 1) (.mul (.num 31 1) (.var 1))) (.mul (.num 20 1) (.pow (.var 1) 2))) (.mul (.num 4 1) (.pow (.var 1) 3)))))) (.div (.mul (.mul (.num 6 1) (.var 1)) (.add (.neg (.num 1 1)) (.mul (.num 2 1) (.var 1)))) (.mul (.mul (.hpow (.add (.num 2 1) (.var 1)) 1) (.sqrt (.mul (.add (.num 1 1) (.var 0)) (.add (.num 1 1) (.mul (.num 2 1) (.var 1)))))) (.add (.add (.add (.num 15 1) (.mul (.num 31 1) (.var 1))) (.mul (.num 20 1) (.pow (.var 1) 2))) (.mul (.num 4 1) (.pow (.var 1) 3)))))) (.div (.mul (.mul (.mul (.num 12 1) (.var 0)) (.var 1)) (.add (.neg (.num 1 1)) (.mul (.num 2 1) (.var 1)))) (.mul (.mul (.mul (.add (.num 1 1) (.mul (.num 2 1) (.var 0))) (.add (.num 2 1) (.var 1))) (.sqrt (.mul (.add (.num 1 1) (.var 0)) (.add (.add (.num 2 1) (.mul (.num 5 1) (.var 1))) (.mul (.num 2 1) (.pow (.var 1) 2)))))) (.add (.add (.add (.num 15 1) (.mul (.num 31 1) (.var 1))) (.mul (.num 20 1) (.pow (.var 1) 2))) (.mul (.num 4 1) (.pow (.var 1) 3))))))),
  .neg (.div (.mul (.mul (.sqrt (.num 2 1)) (.sqrt (.mul (.add (.num 1 1) (.var 0)) (.add (.add (.num 3 1) (.mul (.num 5 1) (.var 1))) (.mul (.num 2 1) (.pow (.var 1) 2)))))) (.add (.add (.sub (.add (.add (.mul (.pow (.var 1) 4) (.add (.mul (.neg (.num 18 1)) (.sqrt (.div (.num 1 1) (.mul (.mul (.add (.num 1 1) (.var 0)) (.pow (.add (.num 2 1) (.var 1)) 5)) (.add (.num 3 1) (.mul (.num 2 1) (.var 1))))))) (.mul (.mul (.num 4 1) (.var 0)) (.sqrt (.div (.add (.num 3 1) (.mul (.num 2 1) (.var 1))) (.mul (.add (.num 1 1) (.var 0)) (.pow (.add (.num 2 1) (.var 1)) 5))))))) (.mul (.num 5 1) (.add (.mul (.num 6 1) (.sqrt (.div (.num 1 1) (.mul (.mul (.add (.num 1 1) (.var 0)) (.pow (.add (.num 2 1) (.var 1)) 5)) (.add (.num 3 1) (.mul (.num 2 1) (.var 1))))))) (.sqrt (.div (.add (.num 3 1) (.mul (.num 2 1) (.var 1))) (.mul (.add (.num 1 1) (.var 0)) (.pow (.add (.num 2 1) (.var 1)) 3))))))) (.mul (.mul (.num 6 1) (.var 0)) (.add (.mul (.neg (.num 2 1)) (.sqrt (.div (.add (.num 3 1) (.mul (.num 2 1) (.var 1))) (.mul (.add (.num 1 1) (.var 0)) (.pow (.add (.num 2 1) (.var 1)) 5))))) (.sqrt (.div (.add (.num 3 1) (.mul (.num 2 1) (.var 1))) (.mul (.add (.num 1 1) (.var 0)) (.pow (.add (.num 2 1) (.var 1)) 3))))))) (.mul (.mul (.num 2 1) (.pow (.var 1) 2)) (.sub (.sub (.add (.mul (.num 54 1) (.sqrt (.div (.num 1 1) (.mul (.mul (.add (.num 1 1) (.var 0)) (.pow (.add (.num 2 1) (.var 1)) 5)) (.add (.num 3 1) (.mul (.num 2 1) (.var 1))))))) (.mul (.mul (.num 14 1) (.var 0)) (.sqrt (.div (.add (.num 3 1) (.mul (.num 2 1) (.var 1))) (.mul (.add (.num 1 1) (.var 0)) (.pow (.add (.num 2 1) (.var 1)) 5)))))) (.mul (.num 5 1) (.sqrt (.div (.add (.num 3 1) (.mul (.num 2 1) (.var 1))) (.mul (.add (.num 1 1) (.var 0)) (.pow (.add (.num 2 1) (.var 1)) 3)))))) (.mul (.mul (.num 3 1) (.var 0)) (.sqrt (.div (.add (.num 3 1) (.mul (.num 2 1) (.var 1))) (.mul (.add (.num 1 1) (.var 0)) (.pow (.add (.num 2 1) (.var 1)) 3)))))))) (.mul (.var 1) (.add (.add (.sub (.mul (.neg (.num 21 1)) (.sqrt (.div (.num 1 1) (.mul (.mul (.add (.num 1 1) (.var 0)) (.pow (.add (.num 2 1) (.var 1)) 5)) (.add (.num 3 1) (.mul (.num 2 1) (.var 1))))))) (.mul (.mul (.num 38 1) (.var 0)) (.sqrt (.div (.add (.num 3 1) (.mul (.num 2 1) (.var 1))) (.mul (.add (.num 1 1) (.var 0)) (.pow (.add (.num 2 1) (.var 1)) 5)))))) (.mul (.num 15 1) (.sqrt (.div (.add (.num 3 1) (.mul (.num 2 1) (.var 1))) (.mul (.add (.num 1 1) (.var 0)) (.pow (.add (.num 2 1) (.var 1)) 3)))))) (.mul (.mul (.num 16 1) (.var 0)) (.sqrt (.div (.add (.num 3 1) (.mul (.num 2 1) (.var 1))) (.mul (.add (.num 1 1) (.var 0)) (.pow (.add (.num 2 1) (.var 1)) 3)))))))) (.mul (.pow (.var 1) 3) (.add (.mul (.neg (.num 81 1)) (.sqrt (.div (.num 1 1) (.mul (.mul (.add (.num 1 1) (.var 0)) (.pow (.add (.num 2 1) (.var 1)) 5)) (.add (.num 3 1) (.mul (.num 2 1) (.var 1))))))) (.mul (.mul (.num 2 1) (.var 0)) (.sub (.sqrt (.div (.add (.num 3 1) (.mul (.num 2 1) (.var 1))) (.mul (.add (.num 1 1) (.var 0)) (.pow (.add (.num 2 1) (.var 1)) 5)))) (.mul (.num 2 1) (.sqrt (.div (.add (.num 3 1) (.mul (.num 2 1) (.var 1))) (.mul (.add (.num 1 1) (.var 0)) (.pow (.add (.num 2 1) (.var 1)) 3))))))))))) (.mul (.add (.num 1 1) (.mul (.num 2 1) (.var 0))) (.add (.add (.add (.num 15 1) (.mul (.num 26 1) (.var 1))) (.mul (.num 13 1) (.pow (.var 1) 2))) (.mul (.num 2 1) (.pow (.var 1) 3))))),
  .div (.sub (.add (.add (.add (.add (.mul (.num 120 1) (.sqrt (.div (.mul (.add (.add (.num 1 1) (.mul (.num 3 1) (.var 0))) (.mul (.num 2 1) (.pow (.var 0) 2))) (.add (.add (.num 5 1) (.mul (.num 12 1) (.var 1))) (.mul (.num 4 1) (.pow (.var 1) 2)))) (.add (.add (.num 21 1) (.mul (.num 13 1) (.var 1))) (.mul (.num 2 1) (.pow (.var 1) 2)))))) (.mul (.mul (.num 79 1) (.var 1)) (.sqrt (.div (.mul (.add (.add (.num 1 1) (.mul (.num 3 1) (.var 0))) (.mul (.num 2 1) (.pow (.var 0) 2))) (.add (.add (.num 5 1) (.mul (.num 12 1) (.var 1))) (.mul (.num 4 1) (.pow (.var 1) 2)))) (.add (.add (.num 21 1) (.mul (.num 13 1) (.var 1))) (.mul (.num 2 1) (.pow (.var 1) 2))))))) (.mul (.mul (.num 21 1) (.pow (.var 1) 2)) (.sqrt (.div (.mul (.add (.add (.num 1 1) (.mul (.num 3 1) (.var 0))) (.mul (.num 2 1) (.pow (.var 0) 2))) (.add (.add (.num 5 1) (.mul (.num 12 1) (.var 1))) (.mul (.num 4 1) (.pow (.var 1) 2)))) (.add (.add (.num 21 1) (.mul (.num 13 1) (.var 1))) (.mul (.num 2 1) (.pow (.var 1) 2))))))) (.mul (.mul (.num 2 1) (.pow (.var 1) 3)) (.sqrt (.div (.mul (.add (.add (.num 1 1) (.mul (.num 3 1) (.var 0))) (.mul (.num 2 1) (.pow (.var 0) 2))) (.add (.add (.num 5 1) (.mul (.num 12 1) (.var 1))) (.mul (.num 4 1) (.pow (.var 1) 2)))) (.add (.add (.num 21 1) (.mul (.num 13 1) (.var 1))) (.mul (.num 2 1) (.pow (.var 1) 2))))))) (.mul (.num 90 1) (.sqrt (.div (.mul (.add (.add (.num 1 1) (.mul (.num 3 1) (.var 0))) (.mul (.num 2 1) (.pow (.var 0) 2))) (.add (.num 5 1) (.mul (.num 2 1) (.var 1)))) (.add (.add (.add (.num 21 1) (.mul (.num 55 1) (.var 1))) (.mul (.num 28 1) (.pow (.var 1) 2))) (.mul (.num 4 1) (.pow (.var 1) 3))))))) (.mul (.mul (.num 2 1) (.var 0)) (.add (.add (.add (.add (.mul (.num 120 1) (.sqrt (.div (.mul (.add (.num 1 1) (.var 0)) (.add (.add (.num 5 1) (.mul (.num 12 1) (.var 1))) (.mul (.num 4 1) (.pow (.var 1) 2)))) (.mul (.add (.num 1 1) (.mul (.num 2 1) (.var 0))) (.add (.add (.num 21 1) (.mul (.num 13 1) (.var 1))) (.mul (.num 2 1) (.pow (.var 1) 2))))))) (.mul (.mul (.num 79 1) (.var 1)) (.sqrt (.div (.mul (.add (.num 1 1) (.var 0)) (.add (.add (.num 5 1) (.mul (.num 12 1) (.var 1))) (.mul (.num 4 1) (.pow (.var 1) 2)))) (.mul (.add (.num 1 1) (.mul (.num 2 1) (.var 0))) (.add (.add (.num 21 1) (.mul (.num 13 1) (.var 1))) (.mul (.num 2 1) (.pow (.var 1) 2)))))))) (.mul (.mul (.num 21 1) (.pow (.var 1) 2)) (.sqrt (.div (.mul (.add (.num 1 1) (.var 0)) (.add (.add (.num 5 1) (.mul (.num 12 1) (.var 1))) (.mul (.num 4 1) (.pow (.var 1) 2)))) (.mul (.add (.num 1 1) (.mul (.num 2 1) (.var 0))) (.add (.add (.num 21 1) (.mul (.num 13 1) (.var 1))) (.mul (.num 2 1) (.pow (.var 1) 2)))))))) (.mul (.mul (.num 2 1) (.pow (.var 1) 3)) (.sqrt (.div (.mul (.add (.num 1 1) (.var 0)) (.add (.add (.num 5 1) (.mul (.num 12 1) (.var 1))) (.mul (.num 4 1) (.pow (.var 1) 2)))) (.mul (.add (.num 1 1) (.mul (.num 2 1) (.var 0))) (.add (.add (.num 21 1) (.mul (.num 13 1) (.var 1))) (.mul (.num 2 1) (.pow (.var 1) 2)))))))) (.mul (.num 90 1) (.sqrt (.div (.mul (.add (.num 1 1) (.var 0)) (.add (.num 5 1) (.mul (.num 2 1) (.var 1)))) (.mul (.add (.num 1 1) (.mul (.num 2 1) (.var 0))) (.add (.add (.add (.num 21 1) (.mul (.num 55 1) (.var 1))) (.mul (.num 28 1) (.pow (.var 1) 2))) (.mul (.num 4 1) (.pow (.var 1) 3)))))))))) (.sqrt (.div (.mul (.mul (.mul (.add (.add (.num 1 1) (.mul (.num 3 1) (.var 0))) (.mul (.num 2 1) (.pow (.var 0) 2))) (.pow (.add (.num 2 1) (.var 1)) 2)) (.pow (.add (.num 5 1) (.mul (.num 2 1) (.var 1))) 3)) (.add (.add (.num 21 1) (.mul (.num 13 1) (.var 1))) (.mul (.num 2 1) (.pow (.var 1) 2)))) (.add (.num 1 1) (.mul (.num 2 1) (.var 1))))),
  .neg (.mul (.mul (.sqrt (.num 6 1)) (.sqrt (.mul (.add (.num 1 1) (.var 0)) (.add (.add (.num 3 1) (.mul (.num 5 1) (.var 1))) (.mul (.num 2 1) (.pow (.var 1) 2)))))) (.add (.add (.add (.add (.add (.add (.add (.add (.add (.div (.sub (.num 2 1) (.mul (.num 4 1) (.var 1))) (.mul (.mul (.mul (.add (.num 3 1) (.mul (.num 2 1) (.var 0))) (.hpow (.add (.num 2 1) (.var 1)) 1)) (.sqrt (.div (.add (.num 1 1) (.var 0)) (.add (.num 1 1) (.mul (.num 2 1) (.var 1)))))) (.add (.num 5 1) (.mul (.num 2 1) (.var 1))))) (.div (.num 2 1) (.mul (.mul (.add (.num 3 1) (.mul (.num 2 1) (.var 0))) (.sqrt (.div (.mul (.add (.num 1 1) (.var 0)) (.add (.num 2 1) (.var 1))) (.add (.num 1 1) (.mul (.num 2 1) (.var 1)))))) (.add (.num 5 1) (.mul (.num 2 1) (.var 1)))))) (.div (.num 1 1) (.sqrt (.div (.mul (.mul (.mul (.add (.num 1 1) (.var 0)) (.pow (.add (.num 3 1) (.mul (.num 2 1) (.var 0))) 2)) (.add (.num 2 1) (.var 1))) (.pow (.add (.num 5 1) (.mul (.num 2 1) (.var 1))) 2)) (.mul (.pow (.add (.num 1 1) (.mul (.num 2 1) (.var 0))) 2) (.add (.num 1 1) (.mul (.num 2 1) (.var 1)))))))) (.div (.sub (.num 1 1) (.mul (.num 2 1) (.var 1))) (.sqrt (.div (.mul (.mul (.mul (.add (.num 1 1) (.var 0)) (.pow (.add (.num 3 1) (.mul (.num 2 1) (.var 0))) 2)) (.pow (.add (.num 2 1) (.var 1)) 3)) (.pow (.add (.num 5 1) (.mul (.num 2 1) (.var 1))) 2)) (.mul (.pow (.add (.num 1 1) (.mul (.num 2 1) (.var 0))) 2) (.add (.num 1 1) (.mul (.num 2 1) (.var 1)))))))) (.div (.mul (.mul (.mul (.num 6 1) (.add (.num 1 1) (.mul (.num 2 1) (.var 0)))) (.var 1)) (.add (.neg (.num 1 1)) (.mul (.num 2 1) (.var 1)))) (.mul (.mul (.mul (.mul (.add (.num 3 1) (.mul (.num 2 1) (.var 0))) (.hpow (.add (.num 2 1) (.var 1)) 1)) (.sqrt (.mul (.add (.num 1 1) (.var 0)) (.add (.num 1 1) (.mul (.num 2 1) (.var 1)))))) (.add (.num 3 1) (.mul (.num 2 1) (.var 1)))) (.add (.add (.num 5 1) (.mul (.num 7 1) (.var 1))) (.mul (.num 2 1) (.pow (.var 1) 2)))))) (.div (.mul (.num 3 1) (.add (.neg (.num 3 1)) (.mul (.num 2 1) (.var 1)))) (.sqrt (.div (.mul (.mul (.mul (.mul (.add (.num 1 1) (.var 0)) (.pow (.add (.num 3 1) (.mul (.num 2 1) (.var 0))) 2)) (.pow (.add (.num 2 1) (.var 1)) 3)) (.pow (.add (.num 3 1) (.mul (.num 2 1) (.var 1))) 2)) (.pow (.add (.add (.num 5 1) (.mul (.num 7 1) (.var 1))) (.mul (.num 2 1) (.pow (.var 1) 2))) 2)) (.mul (.add (.num 1 1) (.mul (.num 2 1) (.var 1))) (.pow (.add (.var 1) (.mul (.mul (.num 2 1) (.var 0)) (.var 1))) 2)))))) (.div (.mul (.num 2 1) (.add (.sub (.num 1 1) (.mul (.num 9 1) (.var 1))) (.mul (.num 2 1) (.pow (.var 1) 2)))) (.mul (.mul (.add (.num 3 1) (.mul (.num 2 1) (.var 0))) (.sqrt (.div (.mul (.mul (.add (.num 1 1) (.var 0)) (.add (.num 2 1) (.var 1))) (.pow (.add (.num 3 1) (.mul (.num 2 1) (.var 1))) 2)) (.add (.num 1 1) (.mul (.num 2 1) (.var 1)))))) (.add (.add (.num 10 1) (.mul (.num 9 1) (.var 1))) (.mul (.num 2 1) (.pow (.var 1) 2)))))) (.div (.mul (.add (.num 1 1) (.mul (.num 2 1) (.var 0))) (.add (.sub (.num 1 1) (.mul (.num 9 1) (.var 1))) (.mul (.num 2 1) (.pow (.var 1) 2)))) (.mul (.mul (.add (.num 3 1) (.mul (.num 2 1) (.var 0))) (.sqrt (.div (.mul (.mul (.add (.num 1 1) (.var 0)) (.add (.num 2 1) (.var 1))) (.pow (.add (.num 3 1) (.mul (.num 2 1) (.var 1))) 2)) (.add (.num 1 1) (.mul (.num 2 1) (.var 1)))))) (.add (.add (.num 10 1) (.mul (.num 9 1) (.var 1))) (.mul (.num 2 1) (.pow (.var 1) 2)))))) (.div (.mul (.mul (.num 12 1) (.var 1)) (.add (.neg (.num 1 1)) (.mul (.num 2 1) (.var 1)))) (.mul (.mul (.mul (.add (.num 3 1) (.mul (.num 2 1) (.var 0))) (.add (.num 3 1) (.mul (.num 2 1) (.var 1)))) (.sqrt (.mul (.add (.num 1 1) (.var 0)) (.add (.add (.num 2 1) (.mul (.num 5 1) (.var 1))) (.mul (.num 2 1) (.pow (.var 1) 2)))))) (.add (.add (.add (.num 10 1) (.mul (.num 19 1) (.var 1))) (.mul (.num 11 1) (.pow (.var 1) 2))) (.mul (.num 2 1) (.pow (.var 1) 3)))))) (.div (.mul (.num 6 1) (.add (.neg (.num 3 1)) (.mul (.num 2 1) (.var 1)))) (.sqrt (.div (.mul (.mul (.mul (.add (.num 1 1) (.var 0)) (.pow (.add (.num 3 1) (.mul (.num 2 1) (.var 0))) 2)) (.pow (.add (.num 2 1) (.var 1)) 3)) (.pow (.add (.add (.add (.num 15 1) (.mul (.num 31 1) (.var 1))) (.mul (.num 20 1) (.pow (.var 1) 2))) (.mul (.num 4 1) (.pow (.var 1) 3))) 2)) (.mul (.pow (.var 1) 2) (.add (.num 1 1) (.mul (.num 2 1) (.var 1))))))))),
  .neg (.div (.mul (.mul (.sqrt (.num 2 1)) (.sqrt (.mul (.add (.num 1 1) (.var 0)) (.add (.add (.num 3 1) (.mul (.num 5 1) (.var 1))) (.mul (.num 2 1) (.pow (.var 1) 2)))))) (.add (.add (.sub (.add (.add (.add (.add (.add (.add (.div (.mul (.neg (.num 2 1)) (.add (.num 1 1) (.mul (.num 2 1) (.var 1)))) (.mul (.mul (.add (.num 3 1) (.var 1)) (.sqrt (.div (.mul (.add (.num 1 1) (.var 0)) (.add (.num 2 1) (.var 1))) (.add (.num 3 1) (.mul (.num 2 1) (.var 1)))))) (.add (.num 5 1) (.mul (.num 2 1) (.var 1))))) (.div (.mul (.num 60 1) (.var 1)) (.mul (.mul (.mul (.hpow (.add (.num 2 1) (.var 1)) 1) (.add (.num 3 1) (.var 1))) (.sqrt (.mul (.add (.num 1 1) (.var 0)) (.add (.num 3 1) (.mul (.num 2 1) (.var 1)))))) (.add (.add (.num 5 1) (.mul (.num 7 1) (.var 1))) (.mul (.num 2 1) (.pow (.var 1) 2)))))) (.div (.mul (.mul (.mul (.num 6 1) (.add (.num 1 1) (.mul (.num 2 1) (.var 0)))) (.add (.num 1 1) (.mul (.num 2 1) (.var 1)))) (.add (.neg (.num 1 1)) (.mul (.num 3 1) (.var 1)))) (.mul (.mul (.mul (.hpow (.add (.num 2 1) (.var 1)) 1) (.add (.num 3 1) (.var 1))) (.sqrt (.mul (.add (.num 1 1) (.var 0)) (.add (.num 3 1) (.mul (.num 2 1) (.var 1)))))) (.add (.add (.num 5 1) (.mul (.num 7 1) (.var 1))) (.mul (.num 2 1) (.pow (.var 1) 2)))))) (.div (.mul (.mul (.num 2 1) (.add (.neg (.num 3 1)) (.var 1))) (.add (.num 1 1) (.mul (.num 2 1) (.var 1)))) (.mul (.sqrt (.div (.mul (.mul (.add (.num 1 1) (.var 0)) (.add (.num 2 1) (.var 1))) (.pow (.add (.num 3 1) (.var 1)) 2)) (.add (.num 3 1) (.mul (.num 2 1) (.var 1))))) (.add (.add (.num 10 1) (.mul (.num 9 1) (.var 1))) (.mul (.num 2 1) (.pow (.var 1) 2)))))) (.div (.mul (.mul (.add (.num 1 1) (.mul (.num 2 1) (.var 0))) (.add (.neg (.num 3 1)) (.var 1))) (.add (.num 1 1) (.mul (.num 2 1) (.var 1)))) (.mul (.sqrt (.div (.mul (.mul (.add (.num 1 1) (.var 0)) (.add (.num 2 1) (.var 1))) (.pow (.add (.num 3 1) (.var 1)) 2)) (.add (.num 3 1) (.mul (.num 2 1) (.var 1))))) (.add (.add (.num 10 1) (.mul (.num 9 1) (.var 1))) (.mul (.num 2 1) (.pow (.var 1) 2)))))) (.div (.mul (.mul (.num 18 1) (.add (.neg (.num 1 1)) (.var 1))) (.add (.num 1 1) (.mul (.num 2 1) (.var 1)))) (.mul (.mul (.add (.num 3 1) (.var 1)) (.sqrt (.mul (.add (.num 1 1) (.var 0)) (.add (.add (.num 6 1) (.mul (.num 7 1) (.var 1))) (.mul (.num 2 1) (.pow (.var 1) 2)))))) (.add (.add (.num 10 1) (.mul (.num 9 1) (.var 1))) (.mul (.num 2 1) (.pow (.var 1) 2)))))) (.div (.mul (.mul (.mul (.num 9 1) (.add (.num 1 1) (.mul (.num 2 1) (.var 0)))) (.add (.neg (.num 1 1)) (.var 1))) (.add (.num 1 1) (.mul (.num 2 1) (.var 1)))) (.mul (.mul (.add (.num 3 1) (.var 1)) (.sqrt (.mul (.add (.num 1 1) (.var 0)) (.add (.add (.num 6 1) (.mul (.num 7 1) (.var 1))) (.mul (.num 2 1) (.pow (.var 1) 2)))))) (.add (.add (.num 10 1) (.mul (.num 9 1) (.var 1))) (.mul (.num 2 1) (.pow (.var 1) 2)))))) (.div (.mul (.add (.num 1 1) (.mul (.num 2 1) (.var 0))) (.add (.num 1 1) (.mul (.num 2 1) (.var 1)))) (.mul (.sqrt (.div (.mul (.add (.num 1 1) (.var 0)) (.add (.num 2 1) (.var 1))) (.add (.num 3 1) (.mul (.num 2 1) (.var 1))))) (.add (.add (.num 15 1) (.mul (.num 11 1) (.var 1))) (.mul (.num 2 1) (.pow (.var 1) 2)))))) (.div (.mul (.num 30 1) (.add (.var 1) (.mul (.mul (.num 2 1) (.var 0)) (.var 1)))) (.mul (.mul (.hpow (.add (.num 2 1) (.var 1)) 1) (.sqrt (.mul (.add (.num 1 1) (.var 0)) (.add (.num 3 1) (.mul (.num 2 1) (.var 1)))))) (.add (.add (.add (.num 15 1) (.mul (.num 26 1) (.var 1))) (.mul (.num 13 1) (.pow (.var 1) 2))) (.mul (.num 2 1) (.pow (.var 1) 3)))))) (.div (.mul (.mul (.num 12 1) (.add (.num 1 1) (.mul (.num 2 1) (.var 1)))) (.add (.neg (.num 1 1)) (.mul (.num 3 1) (.var 1)))) (.mul (.mul (.add (.num 2 1) (.var 1)) (.sqrt (.mul (.add (.num 1 1) (.var 0)) (.add (.add (.num 6 1) (.mul (.num 7 1) (.var 1))) (.mul (.num 2 1) (.pow (.var 1) 2)))))) (.add (.add (.add (.num 15 1) (.mul (.num 26 1) (.var 1))) (.mul (.num 13 1) (.pow (.var 1) 2))) (.mul (.num 2 1) (.pow (.var 1) 3))))))) (.add (.num 3 1) (.mul (.num 2 1) (.var 0)))),
  .neg (.div (.mul (.add (.num 3 1) (.mul (.num 2 1) (.var 0))) (.add (.add (.add (.add (.mul (.num 120 1) (.sqrt (.div (.mul (.add (.num 1 1) (.var 0)) (.add (.add (.num 5 1) (.mul (.num 12 1) (.var 1))) (.mul (.num 4 1) (.pow (.var 1) 2)))) (.mul (.add (.num 3 1) (.mul (.num 2 1) (.var 0))) (.add (.add (.num 21 1) (.mul (.num 13 1) (.var 1))) (.mul (.num 2 1) (.pow (.var 1) 2))))))) (.mul (.mul (.num 79 1) (.var 1)) (.sqrt (.div (.mul (.add (.num 1 1) (.var 0)) (.add (.add (.num 5 1) (.mul (.num 12 1) (.var 1))) (.mul (.num 4 1) (.pow (.var 1) 2)))) (.mul (.add (.num 3 1) (.mul (.num 2 1) (.var 0))) (.add (.add (.num 21 1) (.mul (.num 13 1) (.var 1))) (.mul (.num 2 1) (.pow (.var 1) 2)))))))) (.mul (.mul (.num 21 1) (.pow (.var 1) 2)) (.sqrt (.div (.mul (.add (.num 1 1) (.var 0)) (.add (.add (.num 5 1) (.mul (.num 12 1) (.var 1))) (.mul (.num 4 1) (.pow (.var 1) 2)))) (.mul (.add (.num 3 1) (.mul (.num 2 1) (.var 0))) (.add (.add (.num 21 1) (.mul (.num 13 1) (.var 1))) (.mul (.num 2 1) (.pow (.var 1) 2)))))))) (.mul (.mul (.num 2 1) (.pow (.var 1) 3)) (.sqrt (.div (.mul (.add (.num 1 1) (.var 0)) (.add (.add (.num 5 1) (.mul (.num 12 1) (.var 1))) (.mul (.num 4 1) (.pow (.var 1) 2)))) (.mul (.add (.num 3 1) (.mul (.num 2 1) (.var 0))) (.add (.add (.num 21 1) (.mul (.num 13 1) (.var 1))) (.mul (.num 2 1) (.pow (.var 1) 2)))))))) (.mul (.num 90 1) (.sqrt (.div (.mul (.add (.num 1 1) (.var 0)) (.add (.num 5 1) (.mul (.num 2 1) (.var 1)))) (.mul (.add (.num 3 1) (.mul (.num 2 1) (.var 0))) (.add (.add (.add (.num 21 1) (.mul (.num 55 1) (.var 1))) (.mul (.num 28 1) (.pow (.var 1) 2))) (.mul (.num 4 1) (.pow (.var 1) 3))))))))) (.sqrt (.div (.mul (.mul (.mul (.mul (.add (.num 1 1) (.var 0)) (.add (.num 3 1) (.mul (.num 2 1) (.var 0)))) (.pow (.add (.num 2 1) (.var 1)) 2)) (.pow (.add (.num 5 1) (.mul (.num 2 1) (.var 1))) 3)) (.add (.add (.num 21 1) (.mul (.num 13 1) (.var 1))) (.mul (.num 2 1) (.pow (.var 1) 2)))) (.add (.num 1 1) (.mul (.num 2 1) (.var 1)))))),
  .div (.sqrt (.div (.mul (.add (.add (.neg (.num 1 1)) (.var 0)) (.mul (.num 2 1) (.pow (.var 0) 2))) (.add (.add (.neg (.num 3 1)) (.mul (.num 4 1) (.var 1))) (.mul (.num 4 1) (.pow (.var 1) 2)))) (.mul (.var 0) (.add (.num 1 1) (.mul (.num 2 1) (.var 0)))))) (.add (.num 1 1) (.mul (.num 2 1) (.var 1))),
  .neg (.div (.num 1 1) (.mul (.add (.num 1 1) (.var 1)) (.sqrt (.div (.mul (.mul (.var 0) (.add (.num 1 1) (.mul (.num 2 1) (.var 0)))) (.add (.num 1 1) (.mul (.num 2 1) (.var 1)))) (.mul (.add (.add (.neg (.num 1 1)) (.var 0)) (.mul (.num 2 1) (.pow (.var 0) 2))) (.add (.num 3 1) (.mul (.num 2 1) (.var 1)))))))),
  .div (.mul (.sqrt (.div (.mul (.add (.num 1 1) (.var 0)) (.add (.num 3 1) (.mul (.num 2 1) (.var 1)))) (.var 0))) (.add (.mul (.num 2 1) (.sqrt (.div (.mul (.add (.neg (.num 1 1)) (.mul (.num 2 1) (.var 0))) (.var 1)) (.mul (.add (.num 1 1) (.mul (.num 2 1) (.var 0))) (.add (.add (.num 6 1) (.mul (.num 7 1) (.var 1))) (.mul (.num 2 1) (.pow (.var 1) 2))))))) (.sqrt (.div (.mul (.add (.neg (.num 1 1)) (.mul (.num 2 1) (.var 0))) (.pow (.var 1) 3)) (.mul (.add (.num 1 1) (.mul (.num 2 1) (.var 0))) (.add (.add (.num 6 1) (.mul (.num 7 1) (.var 1))) (.mul (.num 2 1) (.pow (.var 1) 2)))))))) (.add (.num 1 1) (.var 1)),
  .div (.sqrt (.div (.add (.add (.neg (.num 1 1)) (.var 0)) (.mul (.num 2 1) (.pow (.var 0) 2))) (.mul (.var 0) (.add (.num 1 1) (.mul (.num 2 1) (.var 0)))))) (.add (.add (.num 1 1) (.mul (.num 3 1) (.var 1))) (.mul (.num 2 1) (.pow (.var 1) 2))),
  .neg (.div (.sqrt (.div (.add (.add (.neg (.num 1 1)) (.var 0)) (.mul (.num 2 1) (.pow (.var 0) 2))) (.mul (.var 0) (.add (.num 1 1) (.mul (.num 2 1) (.var 0)))))) (.add (.num 1 1) (.var 1))),
  .neg (.div (.num 1 1) (.sqrt (.div (.mul (.mul (.var 0) (.add (.num 1 1) (.mul (.num 2 1) (.var 0)))) (.pow (.add (.num 1 1) (.mul (.num 2 1) (.var 1))) 2)) (.add (.add (.neg (.num 3 1)) (.mul (.num 4 1) (.var 1))) (.mul (.num 4 1) (.pow (.var 1) 2)))))),
  .div (.mul (.add (.num 3 1) (.mul (.num 2 1) (.var 0))) (.sqrt (.div (.mul (.var 0) (.add (.add (.neg (.num 3 1)) (.mul (.num 4 1) (.var 1))) (.mul (.num 4 1) (.pow (.var 1) 2)))) (.add (.add (.add (.num 3 1) (.mul (.num 11 1) (.var 0))) (.mul (.num 12 1) (.pow (.var 0) 2))) (.mul (.num 4 1) (.pow (.var 0) 3)))))) (.add (.num 1 1) (.mul (.num 2 1) (.var 1))),
  .div (.num 1 1) (.mul (.add (.num 1 1) (.var 1)) (.sqrt (.div (.mul (.mul (.var 0) (.add (.num 1 1) (.mul (.num 2 1) (.var 0)))) (.add (.num 1 1) (.mul (.num 2 1) (.var 1)))) (.add (.num 3 1) (.mul (.num 2 1) (.var 1)))))),
  .neg (.div (.sub (.add (.add (.sub (.add (.mul (.mul (.neg (.num 2 1)) (.var 1)) (.sqrt (.div (.mul (.mul (.mul (.var 0) (.pow (.add (.num 1 1) (.var 0)) 3)) (.var 1)) (.pow (.add (.num 1 1) (.var 1)) 2)) (.add (.num 3 1) (.mul (.num 2 1) (.var 1)))))) (.mul (.mul (.num 2 1) (.pow (.var 1) 2)) (.sqrt (.div (.mul (.mul (.mul (.var 0) (.pow (.add (.num 1 1) (.var 0)) 3)) (.var 1)) (.pow (.add (.num 1 1) (.var 1)) 2)) (.add (.num 3 1) (.mul (.num 2 1) (.var 1))))))) (.div (.mul (.mul (.mul (.hpow (.add (.num 1 1) (.var 0)) 1) (.add (.neg (.num 1 1)) (.mul (.num 2 1) (.var 0)))) (.hpow (.var 1) 2)) (.add (.num 1 1) (.var 1))) (.sqrt (.mul (.var 0) (.add (.num 3 1) (.mul (.num 2 1) (.var 1))))))) (.div (.mul (.mul (.mul (.hpow (.add (.num 1 1) (.var 0)) 1) (.add (.neg (.num 1 1)) (.mul (.num 2 1) (.var 0)))) (.var 1)) (.add (.num 1 1) (.var 1))) (.sqrt (.div (.mul (.var 0) (.add (.num 3 1) (.mul (.num 2 1) (.var 1)))) (.var 1))))) (.mul (.mul (.num 6 1) (.hpow (.mul (.mul (.add (.num 1 1) (.var 0)) (.var 1)) (.add (.num 1 1) (.var 1))) 1)) (.sqrt (.div (.var 0) (.add (.add (.num 3 1) (.mul (.num 5 1) (.var 1))) (.mul (.num 2 1) (.pow (.var 1) 2))))))) (.div (.mul (.mul (.num 3 1) (.add (.neg (.num 1 1)) (.mul (.num 2 1) (.var 0)))) (.hpow (.mul (.mul (.add (.num 1 1) (.var 0)) (.var 1)) (.add (.num 1 1) (.var 1))) 1)) (.sqrt (.mul (.var 0) (.add (.add (.num 3 1) (.mul (.num 5 1) (.var 1))) (.mul (.num 2 1) (.pow (.var 1) 2))))))) (.mul (.mul (.mul (.hpow (.add (.num 1 1) (.var 0)) 1) (.var 1)) (.pow (.add (.num 1 1) (.var 1)) 2)) (.sqrt (.div (.mul (.add (.num 1 1) (.mul (.num 2 1) (.var 0))) (.add (.num 2 1) (.var 1))) (.add (.num 3 1) (.mul (.num 2 1) (.var 1))))))),
  .neg (.div (.mul (.var 0) (.add (.num 3 1) (.mul (.num 2 1) (.var 0)))) (.mul (.add (.num 1 1) (.var 1)) (.sqrt (.div (.mul (.mul (.mul (.var 0) (.add (.num 1 1) (.var 0))) (.add (.add (.num 3 1) (.mul (.num 8 1) (.var 0))) (.mul (.num 4 1) (.pow (.var 0) 2)))) (.add (.num 1 1) (.mul (.num 2 1) (.var 1)))) (.add (.num 3 1) (.mul (.num 2 1) (.var 1))))))),
  .add (.add (.add (.div (.mul (.num 12 1) (.sqrt (.div (.mul (.var 0) (.var 1)) (.mul (.add (.add (.add (.num 3 1) (.mul (.num 11 1) (.var 0))) (.mul (.num 12 1) (.pow (.var 0) 2))) (.mul (.num 4 1) (.pow (.var 0) 3))) (.add (.num 2 1) (.var 1)))))) (.add (.num 1 1) (.var 1))) (.div (.mul (.mul (.num 3 1) (.var 0)) (.add (.neg (.num 1 1)) (.mul (.num 2 1) (.var 0)))) (.sqrt (.div (.mul (.mul (.mul (.mul (.var 0) (.add (.num 1 1) (.var 0))) (.add (.add (.num 3 1) (.mul (.num 8 1) (.var 0))) (.mul (.num 4 1) (.pow (.var 0) 2)))) (.pow (.add (.num 1 1) (.var 1)) 2)) (.add (.num 2 1) (.var 1))) (.var 1))))) (.div (.mul (.mul (.num 4 1) (.add (.neg (.num 1 1)) (.var 1))) (.var 1)) (.sqrt (.div (.mul (.mul (.mul (.mul (.add (.num 1 1) (.var 0)) (.add (.add (.num 3 1) (.mul (.num 8 1) (.var 0))) (.mul (.num 4 1) (.pow (.var 0) 2)))) (.var 1)) (.pow (.add (.num 1 1) (.var 1)) 2)) (.add (.num 2 1) (.var 1))) (.var 0))))) (.div (.mul (.mul (.add (.neg (.num 1 1)) (.mul (.num 2 1) (.var 0))) (.add (.neg (.num 1 1)) (.var 1))) (.var 1)) (.sqrt (.div (.mul (.mul (.mul (.mul (.add (.num 1 1) (.var 0)) (.add (.add (.num 3 1) (.mul (.num 8 1) (.var 0))) (.mul (.num 4 1) (.pow (.var 0) 2)))) (.var 1)) (.pow (.add (.num 1 1) (.var 1)) 2)) (.add (.num 2 1) (.var 1))) (.var 0)))),
  .neg (.div (.add (.sub (.add (.add (.sub (.mul (.mul (.mul (.num 2 1) (.add (.neg (.num 1 1)) (.mul (.num 2 1) (.var 0)))) (.var 1)) (.sqrt (.div (.add (.num 1 1) (.mul (.num 2 1) (.var 1))) (.add (.var 0) (.mul (.var 0) (.var 1)))))) (.mul (.mul (.num 4 1) (.var 1)) (.sqrt (.div (.add (.var 0) (.mul (.mul (.num 2 1) (.var 0)) (.var 1))) (.add (.num 1 1) (.var 1)))))) (.div (.sub (.num 1 1) (.mul (.num 2 1) (.var 0))) (.sqrt (.div (.var 0) (.add (.add (.num 1 1) (.mul (.num 3 1) (.var 1))) (.mul (.num 2 1) (.pow (.var 1) 2))))))) (.mul (.mul (.mul (.num 2 1) (.var 1)) (.add (.neg (.num 1 1)) (.mul (.num 2 1) (.var 1)))) (.sqrt (.div (.var 0) (.add (.add (.num 1 1) (.mul (.num 3 1) (.var 1))) (.mul (.num 2 1) (.pow (.var 1) 2))))))) (.div (.mul (.mul (.add (.neg (.num 1 1)) (.mul (.num 2 1) (.var 0))) (.var 1)) (.add (.neg (.num 1 1)) (.mul (.num 2 1) (.var 1)))) (.sqrt (.mul (.var 0) (.add (.add (.num 1 1) (.mul (.num 3 1) (.var 1))) (.mul (.num 2 1) (.pow (.var 1) 2))))))) (.mul (.num 2 1) (.sqrt (.mul (.var 0) (.add (.add (.num 1 1) (.mul (.num 3 1) (.var 1))) (.mul (.num 2 1) (.pow (.var 1) 2))))))) (.mul (.add (.num 1 1) (.var 1)) (.sqrt (.div (.mul (.add (.num 1 1) (.mul (.num 2 1) (.var 0))) (.add (.num 1 1) (.mul (.num 2 1) (.var 1)))) (.add (.num 1 1) (.var 1)))))),
  .div (.num 1 1) (.sqrt (.mul (.mul (.var 0) (.add (.num 1 1) (.mul (.num 2 1) (.var 0)))) (.pow (.add (.num 1 1) (.var 1)) 2))),
  .div (.add (.sub (.add (.mul (.num 3 1) (.sqrt (.div (.mul (.var 0) (.add (.add (.num 1 1) (.mul (.num 3 1) (.var 1))) (.mul (.num 2 1) (.pow (.var 1) 2)))) (.add (.num 1 1) (.var 0))))) (.mul (.num 2 1) (.sqrt (.div (.mul (.pow (.var 0) 3) (.add (.add (.num 1 1) (.mul (.num 3 1) (.var 1))) (.mul (.num 2 1) (.pow (.var 1) 2)))) (.add (.num 1 1) (.var 0)))))) (.mul (.var 1) (.add (.add (.add (.mul (.num 6 1) (.sqrt (.div (.add (.var 0) (.mul (.mul (.num 2 1) (.var 0)) (.var 1))) (.add (.add (.add (.num 1 1) (.var 0)) (.var 1)) (.mul (.var 0) (.var 1)))))) (.mul (.num 4 1) (.sqrt (.div (.add (.pow (.var 0) 3) (.mul (.mul (.num 2 1) (.pow (.var 0) 3)) (.var 1))) (.add (.add (.add (.num 1 1) (.var 0)) (.var 1)) (.mul (.var 0) (.var 1))))))) (.mul (.num 3 1) (.sqrt (.div (.var 0) (.mul (.add (.num 1 1) (.var 0)) (.add (.add (.num 1 1) (.mul (.num 3 1) (.var 1))) (.mul (.num 2 1) (.pow (.var 1) 2)))))))) (.mul (.num 2 1) (.sqrt (.div (.pow (.var 0) 3) (.mul (.add (.num 1 1) (.var 0)) (.add (.add (.num 1 1) (.mul (.num 3 1) (.var 1))) (.mul (.num 2 1) (.pow (.var 1) 2)))))))))) (.mul (.pow (.var 1) 2) (.add (.mul (.num 6 1) (.sqrt (.div (.var 0) (.mul (.add (.num 1 1) (.var 0)) (.add (.add (.num 1 1) (.mul (.num 3 1) (.var 1))) (.mul (.num 2 1) (.pow (.var 1) 2))))))) (.mul (.num 4 1) (.sqrt (.div (.pow (.var 0) 3) (.mul (.add (.num 1 1) (.var 0)) (.add (.add (.num 1 1) (.mul (.num 3 1) (.var 1))) (.mul (.num 2 1) (.pow (.var 1) 2)))))))))) (.sqrt (.mul (.add (.add (.num 3 1) (.mul (.num 8 1) (.var 0))) (.mul (.num 4 1) (.pow (.var 0) 2))) (.add (.add (.num 1 1) (.mul (.num 3 1) (.var 1))) (.mul (.num 2 1) (.pow (.var 1) 2))))),
  .neg (.mul (.sqrt (.mul (.add (.num 1 1) (.var 0)) (.add (.add (.num 3 1) (.mul (.num 5 1) (.var 1))) (.mul (.num 2 1) (.pow (.var 1) 2))))) (.add (.add (.sub (.add (.add (.mul (.mul (.neg (.num 4 1)) (.add (.neg (.num 1 1)) (.var 1))) (.sqrt (.div (.mul (.var 0) (.pow (.add (.num 1 1) (.mul (.num 2 1) (.var 1))) 2)) (.mul (.mul (.mul (.mul (.pow (.add (.num 1 1) (.var 0)) 2) (.add (.add (.num 3 1) (.mul (.num 8 1) (.var 0))) (.mul (.num 4 1) (.pow (.var 0) 2)))) (.pow (.add (.num 1 1) (.var 1)) 3)) (.pow (.add (.num 2 1) (.var 1)) 2)) (.add (.num 3 1) (.mul (.num 2 1) (.var 1))))))) (.div (.sub (.num 3 1) (.mul (.num 6 1) (.var 0))) (.sqrt (.div (.mul (.mul (.mul (.mul (.pow (.add (.num 1 1) (.var 0)) 2) (.add (.add (.num 3 1) (.mul (.num 8 1) (.var 0))) (.mul (.num 4 1) (.pow (.var 0) 2)))) (.pow (.add (.num 1 1) (.var 1)) 3)) (.pow (.add (.num 2 1) (.var 1)) 2)) (.add (.num 3 1) (.mul (.num 2 1) (.var 1)))) (.mul (.var 0) (.pow (.var 1) 2)))))) (.div (.add (.sub (.neg (.num 1 1)) (.mul (.mul (.num 2 1) (.var 0)) (.add (.neg (.num 1 1)) (.var 1)))) (.var 1)) (.sqrt (.div (.mul (.mul (.mul (.mul (.pow (.add (.num 1 1) (.var 0)) 2) (.add (.add (.num 3 1) (.mul (.num 8 1) (.var 0))) (.mul (.num 4 1) (.pow (.var 0) 2)))) (.pow (.add (.num 1 1) (.var 1)) 3)) (.pow (.add (.num 2 1) (.var 1)) 2)) (.add (.num 3 1) (.mul (.num 2 1) (.var 1)))) (.mul (.var 0) (.pow (.add (.num 1 1) (.mul (.num 2 1) (.var 1))) 2)))))) (.div (.mul (.mul (.num 12 1) (.var 1)) (.sqrt (.div (.var 0) (.mul (.mul (.pow (.add (.num 1 1) (.var 0)) 2) (.add (.add (.num 3 1) (.mul (.num 8 1) (.var 0))) (.mul (.num 4 1) (.pow (.var 0) 2)))) (.add (.add (.num 3 1) (.mul (.num 5 1) (.var 1))) (.mul (.num 2 1) (.pow (.var 1) 2))))))) (.add (.add (.num 2 1) (.mul (.num 3 1) (.var 1))) (.pow (.var 1) 2)))) (.mul (.num 4 1) (.sqrt (.div (.mul (.var 0) (.pow (.add (.num 1 1) (.mul (.num 2 1) (.var 1))) 2)) (.mul (.mul (.mul (.pow (.add (.num 1 1) (.var 0)) 2) (.add (.add (.num 3 1) (.mul (.num 8 1) (.var 0))) (.mul (.num 4 1) (.pow (.var 0) 2)))) (.pow (.add (.num 2 1) (.var 1)) 2)) (.add (.add (.num 3 1) (.mul (.num 5 1) (.var 1))) (.mul (.num 2 1) (.pow (.var 1) 2)))))))) (.div (.mul (.mul (.var 0) (.add (.neg (.num 1 1)) (.mul (.num 2 1) (.var 0)))) (.add (.num 1 1) (.mul (.num 2 1) (.var 1)))) (.mul (.mul (.add (.num 1 1) (.var 0)) (.add (.num 2 1) (.var 1))) (.sqrt (.mul (.mul (.var 0) (.add (.add (.num 3 1) (.mul (.num 8 1) (.var 0))) (.mul (.num 4 1) (.pow (.var 0) 2)))) (.add (.add (.num 3 1) (.mul (.num 5 1) (.var 1))) (.mul (.num 2 1) (.pow (.var 1) 2))))))))),
  .mul (.add (.num 3 1) (.mul (.num 2 1) (.var 0))) (.sqrt (.div (.var 0) (.mul (.add (.num 1 1) (.var 0)) (.add (.add (.num 3 1) (.mul (.num 8 1) (.var 0))) (.mul (.num 4 1) (.pow (.var 0) 2)))))),
  .neg (.div (.sub (.add (.mul (.num 2 1) (.sqrt (.div (.mul (.mul (.add (.add (.num 1 1) (.mul (.num 3 1) (.var 0))) (.mul (.num 2 1) (.pow (.var 0) 2))) (.var 1)) (.add (.neg (.num 1 1)) (.mul (.num 2 1) (.var 1)))) (.mul (.add (.num 3 1) (.mul (.num 2 1) (.var 0))) (.add (.add (.num 1 1) (.mul (.num 3 1) (.var 1))) (.mul (.num 2 1) (.pow (.var 1) 2))))))) (.sqrt (.div (.mul (.mul (.add (.num 1 1) (.mul (.num 2 1) (.var 0))) (.var 1)) (.add (.neg (.num 1 1)) (.mul (.num 2 1) (.var 1)))) (.mul (.add (.add (.num 3 1) (.mul (.num 5 1) (.var 0))) (.mul (.num 2 1) (.pow (.var 0) 2))) (.add (.add (.num 1 1) (.mul (.num 3 1) (.var 1))) (.mul (.num 2 1) (.pow (.var 1) 2))))))) (.mul (.mul (.num 2 1) (.var 0)) (.add (.sqrt (.div (.mul (.mul (.add (.num 1 1) (.mul (.num 2 1) (.var 0))) (.var 1)) (.add (.neg (.num 1 1)) (.mul (.num 2 1) (.var 1)))) (.mul (.add (.add (.num 3 1) (.mul (.num 5 1) (.var 0))) (.mul (.num 2 1) (.pow (.var 0) 2))) (.add (.add (.num 1 1) (.mul (.num 3 1) (.var 1))) (.mul (.num 2 1) (.pow (.var 1) 2)))))) (.mul (.num 2 1) (.sqrt (.div (.mul (.var 1) (.add (.neg (.num 1 1)) (.mul (.num 2 1) (.var 1)))) (.mul (.add (.add (.add (.num 3 1) (.mul (.num 11 1) (.var 0))) (.mul (.num 12 1) (.pow (.var 0) 2))) (.mul (.num 4 1) (.pow (.var 0) 3))) (.add (.add (.num 1 1) (.mul (.num 3 1) (.var 1))) (.mul (.num 2 1) (.pow (.var 1) 2)))))))))) (.sqrt (.div (.mul (.mul (.add (.num 3 1) (.mul (.num 2 1) (.var 0))) (.var 1)) (.add (.num 1 1) (.mul (.num 2 1) (.var 1)))) (.add (.add (.num 3 1) (.mul (.num 5 1) (.var 1))) (.mul (.num 2 1) (.pow (.var 1) 2)))))),
  .div (.sqrt (.add (.add (.neg (.num 3 1)) (.mul (.num 4 1) (.var 1))) (.mul (.num 4 1) (.pow (.var 1) 2)))) (.add (.num 1 1) (.mul (.num 2 1) (.var 1))),
  .div (.num 1 1) (.mul (.add (.num 1 1) (.var 1)) (.sqrt (.div (.mul (.add (.add (.num 1 1) (.mul (.num 3 1) (.var 0))) (.mul (.num 2 1) (.pow (.var 0) 2))) (.add (.num 1 1) (.mul (.num 2 1) (.var 1)))) (.add (.num 3 1) (.mul (.num 2 1) (.var 1)))))),
  .neg (.mul (.sqrt (.mul (.add (.num 1 1) (.var 0)) (.add (.add (.num 3 1) (.mul (.num 5 1) (.var 1))) (.mul (.num 2 1) (.pow (.var 1) 2))))) (.add (.add (.sub (.add (.sub (.mul (.mul (.mul (.num 2 1) (.add (.neg (.num 1 1)) (.var 1))) (.var 1)) (.sqrt (.div (.add (.num 1 1) (.mul (.num 2 1) (.var 0))) (.mul (.mul (.mul (.pow (.add (.num 3 1) (.mul (.num 2 1) (.var 0))) 2) (.var 1)) (.pow (.add (.num 1 1) (.var 1)) 3)) (.add (.add (.num 6 1) (.mul (.num 7 1) (.var 1))) (.mul (.num 2 1) (.pow (.var 1) 2))))))) (.div (.mul (.mul (.num 12 1) (.var 0)) (.sqrt (.div (.var 1) (.mul (.mul (.add (.num 1 1) (.mul (.num 2 1) (.var 0))) (.pow (.add (.num 1 1) (.var 1)) 3)) (.add (.add (.num 6 1) (.mul (.num 7 1) (.var 1))) (.mul (.num 2 1) (.pow (.var 1) 2))))))) (.add (.add (.num 3 1) (.mul (.num 5 1) (.var 0))) (.mul (.num 2 1) (.pow (.var 0) 2))))) (.div (.mul (.num 6 1) (.sqrt (.div (.mul (.add (.num 1 1) (.mul (.num 2 1) (.var 0))) (.var 1)) (.mul (.pow (.add (.num 1 1) (.var 1)) 3) (.add (.add (.num 6 1) (.mul (.num 7 1) (.var 1))) (.mul (.num 2 1) (.pow (.var 1) 2))))))) (.add (.num 3 1) (.mul (.num 2 1) (.var 0))))) (.mul (.mul (.num 4 1) (.add (.neg (.num 1 1)) (.var 1))) (.sqrt (.div (.mul (.pow (.var 0) 2) (.var 1)) (.mul (.mul (.mul (.add (.num 1 1) (.mul (.num 2 1) (.var 0))) (.pow (.add (.add (.num 3 1) (.mul (.num 5 1) (.var 0))) (.mul (.num 2 1) (.pow (.var 0) 2))) 2)) (.pow (.add (.num 1 1) (.var 1)) 3)) (.add (.add (.num 6 1) (.mul (.num 7 1) (.var 1))) (.mul (.num 2 1) (.pow (.var 1) 2)))))))) (.div (.sub (.num 3 1) (.mul (.num 6 1) (.var 0))) (.sqrt (.div (.mul (.mul (.pow (.add (.add (.num 3 1) (.mul (.num 5 1) (.var 0))) (.mul (.num 2 1) (.pow (.var 0) 2))) 2) (.pow (.add (.num 1 1) (.var 1)) 3)) (.add (.add (.num 6 1) (.mul (.num 7 1) (.var 1))) (.mul (.num 2 1) (.pow (.var 1) 2)))) (.add (.var 1) (.mul (.mul (.num 2 1) (.var 0)) (.var 1))))))) (.div (.add (.sub (.neg (.num 1 1)) (.mul (.mul (.num 2 1) (.var 0)) (.add (.neg (.num 1 1)) (.var 1)))) (.var 1)) (.sqrt (.div (.mul (.mul (.pow (.add (.add (.num 3 1) (.mul (.num 5 1) (.var 0))) (.mul (.num 2 1) (.pow (.var 0) 2))) 2) (.pow (.add (.num 1 1) (.var 1)) 3)) (.add (.add (.num 6 1) (.mul (.num 7 1) (.var 1))) (.mul (.num 2 1) (.pow (.var 1) 2)))) (.add (.var 1) (.mul (.mul (.num 2 1) (.var 0)) (.var 1)))))))),
  .neg (.div (.sqrt (.div (.add (.num 3 1) (.mul (.num 2 1) (.var 1))) (.add (.num 1 1) (.mul (.num 2 1) (.var 1))))) (.add (.num 1 1) (.var 1))),
  .neg (.div (.num 1 1) (.mul (.sqrt (.mul (.add (.num 1 1) (.var 0)) (.add (.num 1 1) (.mul (.num 2 1) (.var 0))))) (.add (.add (.num 1 1) (.mul (.num 3 1) (.var 1))) (.mul (.num 2 1) (.pow (.var 1) 2))))),
  .neg (.mul (.sqrt (.mul (.add (.num 1 1) (.var 0)) (.add (.add (.num 3 1) (.mul (.num 5 1) (.var 1))) (.mul (.num 2 1) (.pow (.var 1) 2))))) (.sub (.sub (.add (.add (.sub (.sub (.add (.add (.div (.mul (.mul (.num 6 1) (.var 1)) (.sqrt (.div (.add (.num 1 1) (.mul (.num 2 1) (.var 0))) (.mul (.pow (.add (.num 1 1) (.var 1)) 3) (.add (.num 3 1) (.mul (.num 2 1) (.var 1))))))) (.mul (.add (.num 3 1) (.mul (.num 2 1) (.var 0))) (.add (.num 2 1) (.var 1)))) (.mul (.mul (.num 2 1) (.add (.neg (.num 1 1)) (.var 1))) (.sqrt (.div (.mul (.add (.num 1 1) (.mul (.num 2 1) (.var 0))) (.pow (.add (.num 1 1) (.mul (.num 2 1) (.var 1))) 2)) (.mul (.mul (.mul (.pow (.add (.num 3 1) (.mul (.num 2 1) (.var 0))) 2) (.pow (.add (.num 1 1) (.var 1)) 3)) (.pow (.add (.num 2 1) (.var 1)) 2)) (.add (.num 3 1) (.mul (.num 2 1) (.var 1)))))))) (.div (.mul (.sub (.num 3 1) (.mul (.num 6 1) (.var 0))) (.var 1)) (.mul (.mul (.mul (.add (.add (.num 3 1) (.mul (.num 5 1) (.var 0))) (.mul (.num 2 1) (.pow (.var 0) 2))) (.hpow (.add (.num 1 1) (.var 1)) 1)) (.add (.num 2 1) (.var 1))) (.sqrt (.div (.add (.num 3 1) (.mul (.num 2 1) (.var 1))) (.add (.num 1 1) (.mul (.num 2 1) (.var 0)))))))) (.div (.mul (.mul (.num 4 1) (.add (.neg (.num 1 1)) (.var 1))) (.add (.var 0) (.mul (.mul (.num 2 1) (.var 0)) (.var 1)))) (.mul (.mul (.mul (.add (.add (.num 3 1) (.mul (.num 5 1) (.var 0))) (.mul (.num 2 1) (.pow (.var 0) 2))) (.hpow (.add (.num 1 1) (.var 1)) 1)) (.add (.num 2 1) (.var 1))) (.sqrt (.mul (.add (.num 1 1) (.mul (.num 2 1) (.var 0))) (.add (.num 3 1) (.mul (.num 2 1) (.var 1)))))))) (.div (.mul (.mul (.mul (.add (.neg (.num 1 1)) (.mul (.num 2 1) (.var 0))) (.add (.neg (.num 1 1)) (.var 1))) (.add (.num 1 1) (.mul (.num 2 1) (.var 1)))) (.sqrt (.div (.add (.num 1 1) (.mul (.num 2 1) (.var 0))) (.add (.add (.num 3 1) (.mul (.num 5 1) (.var 1))) (.mul (.num 2 1) (.pow (.var 1) 2)))))) (.mul (.mul (.mul (.add (.num 1 1) (.var 0)) (.add (.num 3 1) (.mul (.num 2 1) (.var 0)))) (.add (.num 1 1) (.var 1))) (.add (.num 2 1) (.var 1))))) (.div (.mul (.add (.neg (.num 1 1)) (.mul (.num 2 1) (.var 0))) (.add (.num 1 1) (.mul (.num 2 1) (.var 1)))) (.mul (.mul (.mul (.add (.num 1 1) (.var 0)) (.add (.num 3 1) (.mul (.num 2 1) (.var 0)))) (.add (.num 2 1) (.var 1))) (.sqrt (.div (.add (.add (.num 3 1) (.mul (.num 5 1) (.var 1))) (.mul (.num 2 1) (.pow (.var 1) 2))) (.add (.num 1 1) (.mul (.num 2 1) (.var 0)))))))) (.div (.mul (.num 4 1) (.add (.var 0) (.mul (.mul (.num 2 1) (.var 0)) (.var 1)))) (.mul (.mul (.mul (.add (.num 1 1) (.var 0)) (.add (.num 3 1) (.mul (.num 2 1) (.var 0)))) (.add (.num 2 1) (.var 1))) (.sqrt (.mul (.add (.num 1 1) (.mul (.num 2 1) (.var 0))) (.add (.add (.num 3 1) (.mul (.num 5 1) (.var 1))) (.mul (.num 2 1) (.pow (.var 1) 2)))))))) (.div (.mul (.mul (.num 12 1) (.var 0)) (.var 1)) (.mul (.mul (.add (.add (.num 3 1) (.mul (.num 5 1) (.var 0))) (.mul (.num 2 1) (.pow (.var 0) 2))) (.add (.add (.num 2 1) (.mul (.num 3 1) (.var 1))) (.pow (.var 1) 2))) (.sqrt (.mul (.add (.num 1 1) (.mul (.num 2 1) (.var 0))) (.add (.add (.num 3 1) (.mul (.num 5 1) (.var 1))) (.mul (.num 2 1) (.pow (.var 1) 2)))))))) (.div (.mul (.num 2 1) (.add (.num 1 1) (.mul (.num 2 1) (.var 1)))) (.mul (.add (.num 3 1) (.mul (.num 2 1) (.var 0))) (.sqrt (.div (.mul (.pow (.add (.num 2 1) (.var 1)) 2) (.add (.add (.num 3 1) (.mul (.num 5 1) (.var 1))) (.mul (.num 2 1) (.pow (.var 1) 2)))) (.add (.num 1 1) (.mul (.num 2 1) (.var 0))))))))),
  .neg (.div (.num 1 1) (.sqrt (.mul (.add (.num 1 1) (.var 0)) (.add (.num 1 1) (.mul (.num 2 1) (.var 0)))))),
  .div (.num 1 1) (.add (.add (.num 1 1) (.mul (.num 3 1) (.var 1))) (.mul (.num 2 1) (.pow (.var 1) 2))),
  .neg (.div (.sqrt (.add (.add (.neg (.num 3 1)) (.mul (.num 4 1) (.var 1))) (.mul (.num 4 1) (.pow (.var 1) 2)))) (.add (.add (.add (.num 1 1) (.mul (.num 2 1) (.var 0))) (.mul (.num 2 1) (.var 1))) (.mul (.mul (.num 4 1) (.var 0)) (.var 1)))),
  .neg (.div (.add (.mul (.num 2 1) (.sqrt (.div (.var 1) (.add (.num 2 1) (.var 1))))) (.sqrt (.div (.pow (.var 1) 3) (.add (.num 2 1) (.var 1))))) (.add (.num 1 1) (.var 1))),
  .div (.sqrt (.div (.add (.num 3 1) (.mul (.num 2 1) (.var 1))) (.add (.num 1 1) (.mul (.num 2 1) (.var 1))))) (.add (.add (.add (.num 1 1) (.mul (.num 2 1) (.var 0))) (.var 1)) (.mul (.mul (.num 2 1) (.var 0)) (.var 1))),
  .neg (.div (.add (.mul (.num 2 1) (.sqrt (.div (.var 1) (.add (.num 2 1) (.var 1))))) (.sqrt (.div (.pow (.var 1) 3) (.add (.num 2 1) (.var 1))))) (.add (.add (.add (.num 1 1) (.mul (.num 2 1) (.var 0))) (.var 1)) (.mul (.mul (.num 2 1) (.var 0)) (.var 1)))),
  .neg (.div (.num 1 1) (.add (.add (.num 1 1) (.mul (.num 3 1) (.var 1))) (.mul (.num 2 1) (.pow (.var 1) 2)))),
  .neg (.div (.num 1 1) (.mul (.add (.num 1 1) (.mul (.num 2 1) (.var 0))) (.add (.add (.num 1 1) (.mul (.num 3 1) (.var 1))) (.mul (.num 2 1) (.pow (.var 1) 2))))),
  .div (.mul (.neg (.num 2 1)) (.sqrt (.div (.mul (.var 0) (.add (.num 1 1) (.var 0))) (.pow (.add (.num 1 1) (.mul (.num 2 1) (.var 1))) 2)))) (.mul (.add (.num 1 1) (.mul (.num 2 1) (.var 0))) (.add (.num 1 1) (.var 1))),
  .neg (.div (.mul (.add (.num 1 1) (.mul (.num 2 1) (.var 1))) (.add (.add (.add (.add (.add (.mul (.mul (.mul (.mul (.num 3 1) (.add (.num 1 1) (.var 0))) (.add (.num 1 1) (.var 1))) (.add (.num 3 1) (.mul (.num 2 1) (.var 1)))) (.sqrt (.div (.mul (.mul (.var 0) (.add (.num 1 1) (.var 0))) (.add (.num 3 1) (.mul (.num 2 1) (.var 1)))) (.mul (.pow (.add (.num 1 1) (.mul (.num 2 1) (.var 0))) 2) (.add (.add (.num 10 1) (.mul (.num 9 1) (.var 1))) (.mul (.num 2 1) (.pow (.var 1) 2))))))) (.div (.mul (.mul (.mul (.mul (.num 6 1) (.add (.num 1 1) (.var 0))) (.add (.num 1 1) (.var 1))) (.add (.num 3 1) (.mul (.num 2 1) (.var 1)))) (.sqrt (.div (.mul (.mul (.var 0) (.add (.num 1 1) (.var 0))) (.add (.num 3 1) (.mul (.num 2 1) (.var 1)))) (.mul (.pow (.add (.num 1 1) (.mul (.num 2 1) (.var 0))) 2) (.add (.add (.num 10 1) (.mul (.num 9 1) (.var 1))) (.mul (.num 2 1) (.pow (.var 1) 2))))))) (.add (.num 1 1) (.mul (.num 2 1) (.var 1))))) (.mul (.num 3 1) (.sqrt (.div (.mul (.mul (.mul (.var 0) (.pow (.add (.num 1 1) (.var 0)) 3)) (.pow (.add (.num 1 1) (.var 1)) 2)) (.pow (.add (.num 3 1) (.mul (.num 2 1) (.var 1))) 3)) (.add (.add (.num 10 1) (.mul (.num 9 1) (.var 1))) (.mul (.num 2 1) (.pow (.var 1) 2))))))) (.sqrt (.div (.mul (.mul (.mul (.var 0) (.pow (.add (.num 1 1) (.var 0)) 3)) (.pow (.add (.num 1 1) (.var 1)) 4)) (.pow (.add (.num 3 1) (.mul (.num 2 1) (.var 1))) 3)) (.add (.add (.num 10 1) (.mul (.num 9 1) (.var 1))) (.mul (.num 2 1) (.pow (.var 1) 2)))))) (.sqrt (.div (.mul (.mul (.mul (.var 0) (.pow (.add (.num 1 1) (.var 0)) 3)) (.pow (.add (.num 1 1) (.var 1)) 4)) (.pow (.add (.num 3 1) (.mul (.num 2 1) (.var 1))) 3)) (.mul (.pow (.add (.num 1 1) (.mul (.num 2 1) (.var 0))) 2) (.add (.add (.num 10 1) (.mul (.num 9 1) (.var 1))) (.mul (.num 2 1) (.pow (.var 1) 2))))))) (.mul (.num 6 1) (.sqrt (.div (.mul (.mul (.mul (.var 0) (.pow (.add (.num 1 1) (.var 0)) 3)) (.pow (.add (.num 1 1) (.var 1)) 2)) (.pow (.add (.num 3 1) (.mul (.num 2 1) (.var 1))) 3)) (.mul (.pow (.add (.num 1 1) (.mul (.num 2 1) (.var 1))) 2) (.add (.add (.num 10 1) (.mul (.num 9 1) (.var 1))) (.mul (.num 2 1) (.pow (.var 1) 2))))))))) (.mul (.mul (.mul (.pow (.add (.num 1 1) (.var 0)) 2) (.add (.num 1 1) (.var 1))) (.hpow (.add (.num 3 1) (.mul (.num 2 1) (.var 1))) 1)) (.sqrt (.add (.add (.num 10 1) (.mul (.num 9 1) (.var 1))) (.mul (.num 2 1) (.pow (.var 1) 2)))))),
  .neg (.div (.mul (.sqrt (.div (.mul (.add (.num 1 1) (.mul (.num 2 1) (.var 0))) (.add (.num 3 1) (.mul (.num 2 1) (.var 1)))) (.add (.num 2 1) (.var 1)))) (.add (.add (.add (.mul (.num 2 1) (.sqrt (.div (.mul (.mul (.var 0) (.add (.num 1 1) (.var 0))) (.pow (.var 1) 3)) (.mul (.pow (.add (.num 1 1) (.mul (.num 2 1) (.var 0))) 3) (.add (.num 3 1) (.mul (.num 2 1) (.var 1))))))) (.mul (.num 2 1) (.sqrt (.div (.mul (.mul (.var 0) (.add (.num 1 1) (.var 0))) (.pow (.var 1) 3)) (.mul (.add (.num 1 1) (.mul (.num 2 1) (.var 0))) (.add (.num 3 1) (.mul (.num 2 1) (.var 1)))))))) (.sqrt (.div (.mul (.mul (.var 0) (.add (.num 1 1) (.var 0))) (.pow (.var 1) 5)) (.mul (.pow (.add (.num 1 1) (.mul (.num 2 1) (.var 0))) 3) (.add (.num 3 1) (.mul (.num 2 1) (.var 1))))))) (.sqrt (.div (.mul (.mul (.var 0) (.add (.num 1 1) (.var 0))) (.pow (.var 1) 5)) (.mul (.add (.num 1 1) (.mul (.num 2 1) (.var 0))) (.add (.num 3 1) (.mul (.num 2 1) (.var 1)))))))) (.mul (.mul (.add (.num 1 1) (.var 0)) (.var 1)) (.add (.num 1 1) (.var 1)))),
  .div (.mul (.add (.num 1 1) (.mul (.num 2 1) (.var 1))) (.add (.add (.sub (.sub (.add (.add (.div (.mul (.mul (.mul (.mul (.neg (.num 2 1)) (.hpow (.add (.num 1 1) (.var 0)) 2)) (.var 1)) (.sqrt (.div (.mul (.var 0) (.add (.num 1 1) (.var 1))) (.add (.num 2 1) (.var 1))))) (.hpow (.add (.num 3 1) (.mul (.num 2 1) (.var 1))) 1)) (.add (.num 1 1) (.mul (.num 2 1) (.var 0)))) (.sqrt (.div (.mul (.mul (.mul (.var 0) (.pow (.add (.num 1 1) (.var 0)) 3)) (.add (.num 1 1) (.var 1))) (.pow (.add (.num 3 1) (.mul (.num 2 1) (.var 1))) 3)) (.add (.num 2 1) (.var 1))))) (.sqrt (.div (.mul (.mul (.mul (.var 0) (.pow (.add (.num 1 1) (.var 0)) 3)) (.add (.num 1 1) (.var 1))) (.pow (.add (.num 3 1) (.mul (.num 2 1) (.var 1))) 3)) (.mul (.pow (.add (.num 1 1) (.mul (.num 2 1) (.var 0))) 2) (.add (.num 2 1) (.var 1)))))) (.mul (.num 3 1) (.sqrt (.div (.mul (.mul (.mul (.mul (.var 0) (.pow (.add (.num 1 1) (.var 0)) 3)) (.pow (.var 1) 2)) (.add (.num 1 1) (.var 1))) (.pow (.add (.num 3 1) (.mul (.num 2 1) (.var 1))) 3)) (.mul (.add (.num 2 1) (.var 1)) (.pow (.add (.num 1 1) (.mul (.num 2 1) (.var 1))) 2)))))) (.mul (.num 3 1) (.sqrt (.div (.mul (.mul (.mul (.mul (.var 0) (.pow (.add (.num 1 1) (.var 0)) 3)) (.pow (.var 1) 2)) (.add (.num 1 1) (.var 1))) (.pow (.add (.num 3 1) (.mul (.num 2 1) (.var 1))) 3)) (.mul (.mul (.pow (.add (.num 1 1) (.mul (.num 2 1) (.var 0))) 2) (.add (.num 2 1) (.var 1))) (.pow (.add (.num 1 1) (.mul (.num 2 1) (.var 1))) 2)))))) (.sqrt (.div (.mul (.mul (.var 0) (.pow (.add (.num 1 1) (.var 0)) 3)) (.pow (.add (.add (.num 3 1) (.mul (.num 5 1) (.var 1))) (.mul (.num 2 1) (.pow (.var 1) 2))) 3)) (.add (.num 2 1) (.var 1))))) (.sqrt (.div (.mul (.mul (.var 0) (.pow (.add (.num 1 1) (.var 0)) 3)) (.pow (.add (.add (.num 3 1) (.mul (.num 5 1) (.var 1))) (.mul (.num 2 1) (.pow (.var 1) 2))) 3)) (.mul (.pow (.add (.num 1 1) (.mul (.num 2 1) (.var 0))) 2) (.add (.num 2 1) (.var 1))))))) (.mul (.mul (.pow (.add (.num 1 1) (.var 0)) 2) (.sqrt (.add (.num 2 1) (.var 1)))) (.hpow (.add (.add (.num 3 1) (.mul (.num 5 1) (.var 1))) (.mul (.num 2 1) (.pow (.var 1) 2))) 1)),
  .neg (.div (.sqrt (.div (.sub (.num 9 1) (.mul (.num 4 1) (.pow (.var 1) 2))) (.sub (.num 1 1) (.mul (.num 4 1) (.pow (.var 1) 2))))) (.add (.num 1 1) (.mul (.num 2 1) (.var 0)))),
  .div (.mul (.mul (.sqrt (.num 2 1)) (.sqrt (.div (.add (.add (.num 3 1) (.mul (.num 5 1) (.var 1))) (.mul (.num 2 1) (.pow (.var 1) 2))) (.add (.neg (.num 1 1)) (.var 1))))) (.sub (.sub (.mul (.num 2 1) (.sqrt (.div (.mul (.add (.neg (.num 1 1)) (.var 1)) (.var 1)) (.add (.num 1 1) (.mul (.num 2 1) (.var 1)))))) (.div (.num 2 1) (.sqrt (.div (.mul (.var 1) (.add (.num 1 1) (.mul (.num 2 1) (.var 1)))) (.add (.neg (.num 1 1)) (.var 1)))))) (.div (.mul (.add (.neg (.num 1 1)) (.var 1)) (.add (.neg (.num 3 1)) (.mul (.num 2 1) (.var 1)))) (.sqrt (.mul (.var 1) (.add (.sub (.neg (.num 1 1)) (.var 1)) (.mul (.num 2 1) (.pow (.var 1) 2)))))))) (.add (.num 1 1) (.var 1)),
  .neg (.div (.sqrt (.div (.mul (.add (.add (.neg (.num 2 1)) (.var 1)) (.pow (.var 1) 2)) (.add (.add (.add (.neg (.num 3 1)) (.var 1)) (.mul (.num 8 1) (.pow (.var 1) 2))) (.mul (.num 4 1) (.pow (.var 1) 3)))) (.var 1))) (.mul (.add (.num 1 1) (.var 1)) (.add (.num 1 1) (.mul (.num 2 1) (.var 1))))),
  .div (.sqrt (.div (.add (.add (.num 6 1) (.mul (.num 10 1) (.var 1))) (.mul (.num 4 1) (.pow (.var 1) 2))) (.add (.var 1) (.mul (.num 2 1) (.pow (.var 1) 2))))) (.mul (.add (.num 1 1) (.mul (.num 2 1) (.var 0))) (.add (.num 1 1) (.var 1))),
  .neg (.div (.sqrt (.add (.add (.add (.sub (.add (.neg (.num 5 1)) (.div (.num 6 1) (.var 1))) (.mul (.num 18 1) (.var 1))) (.pow (.var 1) 2)) (.mul (.num 12 1) (.pow (.var 1) 3))) (.mul (.num 4 1) (.pow (.var 1) 4)))) (.mul (.add (.num 1 1) (.mul (.num 2 1) (.var 0))) (.add (.add (.num 1 1) (.mul (.num 3 1) (.var 1))) (.mul (.num 2 1) (.pow (.var 1) 2))))),
  .neg (.div (.sqrt (.num 6 1)) (.sqrt (.mul (.mul (.var 1) (.add (.num 1 1) (.mul (.num 2 1) (.var 1)))) (.add (.add (.neg (.num 1 1)) (.var 1)) (.mul (.num 2 1) (.pow (.var 1) 2)))))),
  .div (.mul (.sqrt (.num 3 1)) (.add (.add (.add (.mul (.neg (.num 4 1)) (.sqrt (.div (.add (.neg (.num 1 1)) (.mul (.num 2 1) (.var 1))) (.add (.num 1 1) (.var 1))))) (.mul (.mul (.num 7 1) (.pow (.var 1) 2)) (.sqrt (.div (.add (.neg (.num 1 1)) (.mul (.num 2 1) (.var 1))) (.add (.num 1 1) (.var 1)))))) (.mul (.num 6 1) (.sqrt (.add (.add (.neg (.num 1 1)) (.var 1)) (.mul (.num 2 1) (.pow (.var 1) 2)))))) (.mul (.mul (.num 3 1) (.var 1)) (.sub (.sqrt (.div (.add (.neg (.num 1 1)) (.mul (.num 2 1) (.var 1))) (.add (.num 1 1) (.var 1)))) (.mul (.num 2 1) (.sqrt (.add (.add (.neg (.num 1 1)) (.var 1)) (.mul (.num 2 1) (.pow (.var 1) 2))))))))) (.mul (.hpow (.add (.num 1 1) (.var 1)) 1) (.sqrt (.mul (.var 1) (.add (.add (.num 2 1) (.mul (.num 5 1) (.var 1))) (.mul (.num 2 1) (.pow (.var 1) 2)))))),
  .neg (.div (.mul (.var 1) (.add (.add (.num 10 1) (.mul (.num 9 1) (.var 1))) (.mul (.num 2 1) (.pow (.var 1) 2)))) (.mul (.mul (.hpow (.add (.num 1 1) (.var 1)) 1) (.add (.num 3 1) (.mul (.num 2 1) (.var 1)))) (.sqrt (.div (.mul (.var 1) (.add (.add (.add (.num 10 1) (.mul (.num 29 1) (.var 1))) (.mul (.num 20 1) (.pow (.var 1) 2))) (.mul (.num 4 1) (.pow (.var 1) 3)))) (.add (.add (.add (.neg (.num 3 1)) (.var 1)) (.mul (.num 8 1) (.pow (.var 1) 2))) (.mul (.num 4 1) (.pow (.var 1) 3))))))),
  .neg (.div (.sqrt (.num 6 1)) (.mul (.add (.num 1 1) (.mul (.num 2 1) (.var 0))) (.sqrt (.mul (.mul (.var 1) (.add (.num 1 1) (.mul (.num 2 1) (.var 1)))) (.add (.add (.neg (.num 1 1)) (.var 1)) (.mul (.num 2 1) (.pow (.var 1) 2))))))),
  .div (.mul (.sqrt (.num 3 1)) (.add (.add (.add (.mul (.neg (.num 4 1)) (.sqrt (.div (.add (.neg (.num 1 1)) (.mul (.num 2 1) (.var 1))) (.add (.num 1 1) (.var 1))))) (.mul (.mul (.num 7 1) (.pow (.var 1) 2)) (.sqrt (.div (.add (.neg (.num 1 1)) (.mul (.num 2 1) (.var 1))) (.add (.num 1 1) (.var 1)))))) (.mul (.num 6 1) (.sqrt (.add (.add (.neg (.num 1 1)) (.var 1)) (.mul (.num 2 1) (.pow (.var 1) 2)))))) (.mul (.mul (.num 3 1) (.var 1)) (.sub (.sqrt (.div (.add (.neg (.num 1 1)) (.mul (.num 2 1) (.var 1))) (.add (.num 1 1) (.var 1)))) (.mul (.num 2 1) (.sqrt (.add (.add (.neg (.num 1 1)) (.var 1)) (.mul (.num 2 1) (.pow (.var 1) 2))))))))) (.mul (.mul (.add (.num 1 1) (.mul (.num 2 1) (.var 0))) (.hpow (.add (.num 1 1) (.var 1)) 1)) (.sqrt (.mul (.var 1) (.add (.add (.num 2 1) (.mul (.num 5 1) (.var 1))) (.mul (.num 2 1) (.pow (.var 1) 2)))))),
  .neg (.div (.mul (.var 1) (.add (.add (.num 10 1) (.mul (.num 9 1) (.var 1))) (.mul (.num 2 1) (.pow (.var 1) 2)))) (.mul (.mul (.hpow (.add (.num 1 1) (.var 1)) 1) (.add (.num 3 1) (.mul (.num 2 1) (.var 1)))) (.sqrt (.div (.mul (.mul (.pow (.add (.num 1 1) (.mul (.num 2 1) (.var 0))) 2) (.var 1)) (.add (.add (.add (.num 10 1) (.mul (.num 29 1) (.var 1))) (.mul (.num 20 1) (.pow (.var 1) 2))) (.mul (.num 4 1) (.pow (.var 1) 3)))) (.add (.add (.add (.neg (.num 3 1)) (.var 1)) (.mul (.num 8 1) (.pow (.var 1) 2))) (.mul (.num 4 1) (.pow (.var 1) 3))))))),
  .div (.mul (.var 1) (.sqrt (.div (.add (.num 15 1) (.mul (.num 6 1) (.var 1))) (.add (.add (.mul (.num 2 1) (.var 1)) (.mul (.num 5 1) (.pow (.var 1) 2))) (.mul (.num 2 1) (.pow (.var 1) 3)))))) (.add (.num 1 1) (.var 1)),
  .neg (.div (.mul (.var 1) (.add (.num 3 1) (.var 1))) (.sqrt (.mul (.var 1) (.add (.add (.add (.num 6 1) (.mul (.num 11 1) (.var 1))) (.mul (.num 6 1) (.pow (.var 1) 2))) (.pow (.var 1) 3))))),
  .div (.mul (.mul (.neg (.num 3 1)) (.sqrt (.add (.add (.num 3 1) (.mul (.num 5 1) (.var 1))) (.mul (.num 2 1) (.pow (.var 1) 2))))) (.add (.add (.sub (.mul (.num 2 1) (.sqrt (.div (.mul (.add (.num 1 1) (.mul (.num 2 1) (.var 0))) (.add (.num 3 1) (.mul (.num 2 1) (.var 1)))) (.add (.num 1 1) (.var 1))))) (.mul (.mul (.num 2 1) (.pow (.var 1) 3)) (.sqrt (.div (.mul (.add (.num 1 1) (.mul (.num 2 1) (.var 0))) (.add (.num 3 1) (.mul (.num 2 1) (.var 1)))) (.add (.num 1 1) (.var 1)))))) (.mul (.var 1) (.sqrt (.mul (.add (.num 1 1) (.mul (.num 2 1) (.var 0))) (.add (.add (.num 3 1) (.mul (.num 5 1) (.var 1))) (.mul (.num 2 1) (.pow (.var 1) 2))))))) (.mul (.pow (.var 1) 2) (.add (.mul (.neg (.num 3 1)) (.sqrt (.div (.mul (.add (.num 1 1) (.mul (.num 2 1) (.var 0))) (.add (.num 3 1) (.mul (.num 2 1) (.var 1)))) (.add (.num 1 1) (.var 1))))) (.mul (.num 2 1) (.sqrt (.mul (.add (.num 1 1) (.mul (.num 2 1) (.var 0))) (.add (.add (.num 3 1) (.mul (.num 5 1) (.var 1))) (.mul (.num 2 1) (.pow (.var 1) 2)))))))))) (.mul (.mul (.mul (.hpow (.add (.num 1 1) (.mul (.num 2 1) (.var 0))) 1) (.add (.num 1 1) (.var 1))) (.add (.num 2 1) (.var 1))) (.add (.add (.num 3 1) (.mul (.num 8 1) (.var 1))) (.mul (.num 4 1) (.pow (.var 1) 2)))),
  .neg (.div (.mul (.mul (.var 1) (.sqrt (.div (.add (.add (.num 9 1) (.mul (.num 15 1) (.var 1))) (.mul (.num 6 1) (.pow (.var 1) 2))) (.add (.var 1) (.mul (.num 2 1) (.pow (.var 1) 2)))))) (.add (.add (.sub (.sub (.sub (.sub (.add (.mul (.mul (.num 2 1) (.hpow (.add (.num 1 1) (.var 1)) 1)) (.sqrt (.div (.mul (.add (.num 1 1) (.mul (.num 2 1) (.var 0))) (.add (.add (.num 15 1) (.mul (.num 16 1) (.var 1))) (.mul (.num 4 1) (.pow (.var 1) 2)))) (.add (.num 2 1) (.var 1))))) (.mul (.mul (.var 1) (.hpow (.add (.num 1 1) (.var 1)) 1)) (.sqrt (.div (.mul (.add (.num 1 1) (.mul (.num 2 1) (.var 0))) (.add (.add (.num 15 1) (.mul (.num 16 1) (.var 1))) (.mul (.num 4 1) (.pow (.var 1) 2)))) (.add (.num 2 1) (.var 1)))))) (.mul (.mul (.mul (.num 8 1) (.pow (.var 1) 2)) (.hpow (.add (.num 1 1) (.var 1)) 1)) (.sqrt (.div (.mul (.add (.num 1 1) (.mul (.num 2 1) (.var 0))) (.add (.add (.num 15 1) (.mul (.num 16 1) (.var 1))) (.mul (.num 4 1) (.pow (.var 1) 2)))) (.add (.num 2 1) (.var 1)))))) (.mul (.mul (.mul (.num 4 1) (.pow (.var 1) 3)) (.hpow (.add (.num 1 1) (.var 1)) 1)) (.sqrt (.div (.mul (.add (.num 1 1) (.mul (.num 2 1) (.var 0))) (.add (.add (.num 15 1) (.mul (.num 16 1) (.var 1))) (.mul (.num 4 1) (.pow (.var 1) 2)))) (.add (.num 2 1) (.var 1)))))) (.mul (.num 11 1) (.sqrt (.mul (.add (.num 1 1) (.mul (.num 2 1) (.var 0))) (.add (.add (.add (.add (.num 30 1) (.mul (.num 77 1) (.var 1))) (.mul (.num 71 1) (.pow (.var 1) 2))) (.mul (.num 28 1) (.pow (.var 1) 3))) (.mul (.num 4 1) (.pow (.var 1) 4))))))) (.mul (.mul (.num 10 1) (.var 1)) (.sqrt (.mul (.add (.num 1 1) (.mul (.num 2 1) (.var 0))) (.add (.add (.add (.add (.num 30 1) (.mul (.num 77 1) (.var 1))) (.mul (.num 71 1) (.pow (.var 1) 2))) (.mul (.num 28 1) (.pow (.var 1) 3))) (.mul (.num 4 1) (.pow (.var 1) 4))))))) (.mul (.mul (.num 2 1) (.pow (.var 1) 2)) (.sqrt (.mul (.add (.num 1 1) (.mul (.num 2 1) (.var 0))) (.add (.add (.add (.add (.num 30 1) (.mul (.num 77 1) (.var 1))) (.mul (.num 71 1) (.pow (.var 1) 2))) (.mul (.num 28 1) (.pow (.var 1) 3))) (.mul (.num 4 1) (.pow (.var 1) 4))))))) (.mul (.mul (.num 4 1) (.pow (.var 1) 3)) (.sqrt (.mul (.add (.num 1 1) (.mul (.num 2 1) (.var 0))) (.add (.add (.add (.add (.num 30 1) (.mul (.num 77 1) (.var 1))) (.mul (.num 71 1) (.pow (.var 1) 2))) (.mul (.num 28 1) (.pow (.var 1) 3))) (.mul (.num 4 1) (.pow (.var 1) 4)))))))) (.mul (.mul (.hpow (.add (.num 1 1) (.mul (.num 2 1) (.var 0))) 1) (.pow (.add (.add (.num 2 1) (.mul (.num 3 1) (.var 1))) (.pow (.var 1) 2)) 2)) (.add (.add (.num 15 1) (.mul (.num 16 1) (.var 1))) (.mul (.num 4 1) (.pow (.var 1) 2))))),
  .neg (.div (.mul (.sqrt (.add (.add (.num 3 1) (.mul (.num 5 1) (.var 1))) (.mul (.num 2 1) (.pow (.var 1) 2)))) (.sub (.sub (.add (.add (.add (.sub (.mul (.mul (.mul (.num 54 1) (.hpow (.var 1) 1)) (.add (.add (.num 2 1) (.mul (.num 3 1) (.var 1))) (.pow (.var 1) 2))) (.sqrt (.div (.mul (.add (.num 1 1) (.mul (.num 2 1) (.var 0))) (.add (.add (.num 9 1) (.mul (.num 9 1) (.var 1))) (.mul (.num 2 1) (.pow (.var 1) 2)))) (.add (.num 2 1) (.var 1))))) (.mul (.mul (.mul (.mul (.num 9 1) (.var 1)) (.add (.num 1 1) (.mul (.num 2 1) (.var 1)))) (.add (.add (.num 2 1) (.mul (.num 3 1) (.var 1))) (.pow (.var 1) 2))) (.sqrt (.div (.mul (.add (.num 1 1) (.mul (.num 2 1) (.var 0))) (.add (.add (.num 9 1) (.mul (.num 9 1) (.var 1))) (.mul (.num 2 1) (.pow (.var 1) 2)))) (.mul (.var 1) (.add (.num 2 1) (.var 1))))))) (.mul (.mul (.mul (.mul (.num 9 1) (.pow (.var 1) 2)) (.add (.num 1 1) (.mul (.num 2 1) (.var 1)))) (.add (.add (.num 2 1) (.mul (.num 3 1) (.var 1))) (.pow (.var 1) 2))) (.sqrt (.div (.mul (.add (.num 1 1) (.mul (.num 2 1) (.var 0))) (.add (.add (.num 9 1) (.mul (.num 9 1) (.var 1))) (.mul (.num 2 1) (.pow (.var 1) 2)))) (.mul (.var 1) (.add (.num 2 1) (.var 1))))))) (.mul (.mul (.num 60 1) (.add (.add (.num 2 1) (.mul (.num 3 1) (.var 1))) (.pow (.var 1) 2))) (.sqrt (.div (.mul (.mul (.add (.num 1 1) (.mul (.num 2 1) (.var 0))) (.var 1)) (.add (.add (.num 9 1) (.mul (.num 9 1) (.var 1))) (.mul (.num 2 1) (.pow (.var 1) 2)))) (.add (.num 2 1) (.var 1)))))) (.mul (.mul (.mul (.hpow (.var 1) 1) (.pow (.add (.num 1 1) (.var 1)) 2)) (.add (.num 1 1) (.mul (.num 2 1) (.var 1)))) (.sqrt (.mul (.mul (.add (.num 1 1) (.mul (.num 2 1) (.var 0))) (.add (.num 2 1) (.var 1))) (.add (.add (.num 9 1) (.mul (.num 9 1) (.var 1))) (.mul (.num 2 1) (.pow (.var 1) 2))))))) (.mul (.mul (.mul (.num 3 1) (.pow (.add (.num 1 1) (.var 1)) 2)) (.add (.num 1 1) (.mul (.num 2 1) (.var 1)))) (.sqrt (.mul (.mul (.mul (.add (.num 1 1) (.mul (.num 2 1) (.var 0))) (.var 1)) (.add (.num 2 1) (.var 1))) (.add (.add (.num 9 1) (.mul (.num 9 1) (.var 1))) (.mul (.num 2 1) (.pow (.var 1) 2))))))) (.mul (.mul (.mul (.num 18 1) (.var 1)) (.add (.num 1 1) (.var 1))) (.sqrt (.div (.mul (.add (.num 1 1) (.mul (.num 2 1) (.var 0))) (.add (.add (.add (.num 18 1) (.mul (.num 27 1) (.var 1))) (.mul (.num 13 1) (.pow (.var 1) 2))) (.mul (.num 2 1) (.pow (.var 1) 3)))) (.var 1)))))) (.mul (.mul (.hpow (.add (.num 1 1) (.mul (.num 2 1) (.var 0))) 1) (.pow (.add (.add (.num 2 1) (.mul (.num 3 1) (.var 1))) (.pow (.var 1) 2)) 2)) (.add (.add (.add (.num 45 1) (.mul (.num 63 1) (.var 1))) (.mul (.num 28 1) (.pow (.var 1) 2))) (.mul (.num 4 1) (.pow (.var 1) 3))))),
  .neg (.div (.sqrt (.num 6 1)) (.sqrt (.mul (.add (.num 1 1) (.var 1)) (.add (.add (.add (.num 6 1) (.mul (.num 19 1) (.var 1))) (.mul (.num 16 1) (.pow (.var 1) 2))) (.mul (.num 4 1) (.pow (.var 1) 3)))))),
  .div (.sqrt (.num 2 1)) (.sqrt (.mul (.add (.num 1 1) (.var 1)) (.add (.num 2 1) (.var 1)))),
  .neg (.div (.sqrt (.num 6 1)) (.mul (.add (.num 1 1) (.mul (.num 2 1) (.var 0))) (.sqrt (.mul (.add (.num 1 1) (.var 1)) (.add (.add (.add (.num 6 1) (.mul (.num 19 1) (.var 1))) (.mul (.num 16 1) (.pow (.var 1) 2))) (.mul (.num 4 1) (.pow (.var 1) 3))))))),
  .neg (.div (.mul (.sqrt (.mul (.mul (.add (.num 2 1) (.mul (.num 4 1) (.var 0))) (.var 1)) (.add (.add (.num 3 1) (.mul (.num 8 1) (.var 1))) (.mul (.num 4 1) (.pow (.var 1) 2))))) (.add (.add (.sub (.add (.sub (.sub (.add (.div (.mul (.mul (.mul (.neg (.num 3 1)) (.hpow (.add (.num 1 1) (.var 1)) 1)) (.add (.num 3 1) (.var 1))) (.add (.add (.num 10 1) (.mul (.num 9 1) (.var 1))) (.mul (.num 2 1) (.pow (.var 1) 2)))) (.sqrt (.div (.mul (.var 1) (.add (.add (.num 6 1) (.mul (.num 5 1) (.var 1))) (.pow (.var 1) 2))) (.add (.add (.num 3 1) (.mul (.num 8 1) (.var 1))) (.mul (.num 4 1) (.pow (.var 1) 2)))))) (.div (.mul (.mul (.mul (.var 1) (.hpow (.add (.num 1 1) (.var 1)) 1)) (.add (.num 3 1) (.var 1))) (.add (.add (.num 10 1) (.mul (.num 9 1) (.var 1))) (.mul (.num 2 1) (.pow (.var 1) 2)))) (.sqrt (.div (.mul (.var 1) (.add (.add (.num 6 1) (.mul (.num 5 1) (.var 1))) (.pow (.var 1) 2))) (.add (.add (.num 3 1) (.mul (.num 8 1) (.var 1))) (.mul (.num 4 1) (.pow (.var 1) 2))))))) (.mul (.mul (.add (.num 5 1) (.mul (.num 2 1) (.var 1))) (.hpow (.add (.add (.num 2 1) (.mul (.num 3 1) (.var 1))) (.pow (.var 1) 2)) 1)) (.sqrt (.add (.add (.add (.num 27 1) (.div (.num 9 1) (.var 1))) (.mul (.num 20 1) (.var 1))) (.mul (.num 4 1) (.pow (.var 1) 2)))))) (.div (.mul (.num 6 1) (.add (.add (.add (.num 30 1) (.mul (.num 37 1) (.var 1))) (.mul (.num 15 1) (.pow (.var 1) 2))) (.mul (.num 2 1) (.pow (.var 1) 3)))) (.sqrt (.div (.mul (.var 1) (.add (.add (.add (.num 18 1) (.mul (.num 27 1) (.var 1))) (.mul (.num 13 1) (.pow (.var 1) 2))) (.mul (.num 2 1) (.pow (.var 1) 3)))) (.add (.add (.num 1 1) (.mul (.num 3 1) (.var 1))) (.mul (.num 2 1) (.pow (.var 1) 2))))))) (.div (.mul (.mul (.num 18 1) (.var 1)) (.add (.add (.add (.num 30 1) (.mul (.num 37 1) (.var 1))) (.mul (.num 15 1) (.pow (.var 1) 2))) (.mul (.num 2 1) (.pow (.var 1) 3)))) (.sqrt (.div (.mul (.var 1) (.add (.add (.add (.num 18 1) (.mul (.num 27 1) (.var 1))) (.mul (.num 13 1) (.pow (.var 1) 2))) (.mul (.num 2 1) (.pow (.var 1) 3)))) (.add (.add (.num 1 1) (.mul (.num 3 1) (.var 1))) (.mul (.num 2 1) (.pow (.var 1) 2))))))) (.mul (.mul (.mul (.num 9 1) (.add (.num 3 1) (.var 1))) (.add (.add (.add (.num 10 1) (.mul (.num 19 1) (.var 1))) (.mul (.num 11 1) (.pow (.var 1) 2))) (.mul (.num 2 1) (.pow (.var 1) 3)))) (.sqrt (.div (.add (.add (.num 1 1) (.mul (.num 3 1) (.var 1))) (.mul (.num 2 1) (.pow (.var 1) 2))) (.add (.add (.add (.mul (.num 18 1) (.var 1)) (.mul (.num 27 1) (.pow (.var 1) 2))) (.mul (.num 13 1) (.pow (.var 1) 3))) (.mul (.num 2 1) (.pow (.var 1) 4))))))) (.mul (.mul (.mul (.mul (.num 9 1) (.var 1)) (.add (.num 3 1) (.var 1))) (.add (.add (.add (.num 10 1) (.mul (.num 19 1) (.var 1))) (.mul (.num 11 1) (.pow (.var 1) 2))) (.mul (.num 2 1) (.pow (.var 1) 3)))) (.sqrt (.div (.add (.add (.num 1 1) (.mul (.num 3 1) (.var 1))) (.mul (.num 2 1) (.pow (.var 1) 2))) (.add (.add (.add (.mul (.num 18 1) (.var 1)) (.mul (.num 27 1) (.pow (.var 1) 2))) (.mul (.num 13 1) (.pow (.var 1) 3))) (.mul (.num 2 1) (.pow (.var 1) 4))))))) (.mul (.mul (.num 30 1) (.add (.add (.add (.num 30 1) (.mul (.num 37 1) (.var 1))) (.mul (.num 15 1) (.pow (.var 1) 2))) (.mul (.num 2 1) (.pow (.var 1) 3)))) (.sqrt (.div (.mul (.var 1) (.add (.num 1 1) (.var 1))) (.add (.add (.add (.add (.num 18 1) (.mul (.num 63 1) (.var 1))) (.mul (.num 67 1) (.pow (.var 1) 2))) (.mul (.num 28 1) (.pow (.var 1) 3))) (.mul (.num 4 1) (.pow (.var 1) 4)))))))) (.mul (.mul (.add (.num 1 1) (.var 1)) (.hpow (.mul (.add (.num 1 1) (.mul (.num 2 1) (.var 0))) (.add (.num 3 1) (.var 1))) 1)) (.pow (.add (.add (.num 10 1) (.mul (.num 9 1) (.var 1))) (.mul (.num 2 1) (.pow (.var 1) 2))) 2))),
  .div (.mul (.mul (.mul (.neg (.num 2 1)) (.sqrt (.num 2 1))) (.sqrt (.mul (.add (.num 1 1) (.mul (.num 2 1) (.var 0))) (.add (.add (.num 3 1) (.mul (.num 5 1) (.var 1))) (.mul (.num 2 1) (.pow (.var 1) 2)))))) (.add (.sub (.sub (.sub (.add (.mul (.num 2 1) (.sqrt (.div (.mul (.pow (.var 0) 3) (.add (.num 1 1) (.var 1))) (.mul (.var 1) (.add (.num 1 1) (.mul (.num 2 1) (.var 1))))))) (.sqrt (.div (.mul (.pow (.var 0) 5) (.add (.num 1 1) (.var 1))) (.mul (.var 1) (.add (.num 1 1) (.mul (.num 2 1) (.var 1))))))) (.sqrt (.div (.mul (.mul (.var 0) (.var 1)) (.add (.num 1 1) (.var 1))) (.add (.num 1 1) (.mul (.num 2 1) (.var 1)))))) (.mul (.num 2 1) (.sqrt (.div (.mul (.mul (.pow (.var 0) 3) (.var 1)) (.add (.num 1 1) (.var 1))) (.add (.num 1 1) (.mul (.num 2 1) (.var 1))))))) (.sqrt (.div (.mul (.mul (.pow (.var 0) 5) (.var 1)) (.add (.num 1 1) (.var 1))) (.add (.num 1 1) (.mul (.num 2 1) (.var 1)))))) (.sqrt (.div (.add (.var 0) (.mul (.var 0) (.var 1))) (.add (.var 1) (.mul (.num 2 1) (.pow (.var 1) 2))))))) (.mul (.add (.neg (.num 1 1)) (.var 1)) (.hpow (.mul (.mul (.add (.num 1 1) (.var 0)) (.add (.num 1 1) (.mul (.num 2 1) (.var 0)))) (.add (.num 1 1) (.var 1))) 1)),
  .div (.mul (.mul (.mul (.neg (.num 2 1)) (.add (.num 1 1) (.var 0))) (.sqrt (.add (.add (.num 3 1) (.mul (.num 5 1) (.var 1))) (.mul (.num 2 1) (.pow (.var 1) 2))))) (.add (.add (.sub (.mul (.num 4 1) (.sqrt (.div (.mul (.var 0) (.add (.neg (.num 1 1)) (.mul (.num 2 1) (.var 1)))) (.mul (.mul (.add (.num 1 1) (.var 0)) (.var 1)) (.add (.add (.neg (.num 2 1)) (.var 1)) (.pow (.var 1) 2)))))) (.mul (.mul (.num 5 1) (.var 1)) (.sqrt (.div (.mul (.var 0) (.add (.neg (.num 1 1)) (.mul (.num 2 1) (.var 1)))) (.mul (.mul (.add (.num 1 1) (.var 0)) (.var 1)) (.add (.add (.neg (.num 2 1)) (.var 1)) (.pow (.var 1) 2))))))) (.mul (.pow (.var 1) 2) (.sqrt (.div (.mul (.var 0) (.add (.neg (.num 1 1)) (.mul (.num 2 1) (.var 1)))) (.mul (.mul (.add (.num 1 1) (.var 0)) (.var 1)) (.add (.add (.neg (.num 2 1)) (.var 1)) (.pow (.var 1) 2))))))) (.mul (.num 6 1) (.sqrt (.div (.mul (.var 0) (.add (.sub (.num 1 1) (.mul (.num 3 1) (.var 1))) (.mul (.num 2 1) (.pow (.var 1) 2)))) (.mul (.mul (.add (.num 1 1) (.var 0)) (.var 1)) (.add (.num 2 1) (.var 1)))))))) (.mul (.add (.num 1 1) (.mul (.num 2 1) (.var 0))) (.add (.add (.num 1 1) (.mul (.num 3 1) (.var 1))) (.mul (.num 2 1) (.pow (.var 1) 2)))),
  .div (.mul (.mul (.neg (.num 2 1)) (.sqrt (.num 6 1))) (.sqrt (.div (.mul (.var 0) (.add (.num 1 1) (.var 0))) (.mul (.mul (.var 1) (.add (.num 1 1) (.var 1))) (.add (.neg (.num 1 1)) (.mul (.num 4 1) (.pow (.var 1) 2))))))) (.add (.num 1 1) (.mul (.num 2 1) (.var 0))),
  .mul (.sqrt (.add (.add (.num 9 1) (.mul (.num 15 1) (.var 1))) (.mul (.num 6 1) (.pow (.var 1) 2)))) (.sub (.add (.add (.sub (.sub (.neg (.mul (.mul (.add (.neg (.num 4 1)) (.var 1)) (.add (.neg (.num 1 1)) (.mul (.num 2 1) (.var 1)))) (.sqrt (.div (.mul (.var 0) (.add (.neg (.num 1 1)) (.mul (.num 2 1) (.var 1)))) (.mul (.mul (.mul (.add (.num 1 1) (.var 0)) (.var 1)) (.pow (.add (.num 1 1) (.var 1)) 3)) (.add (.add (.add (.num 6 1) (.mul (.num 19 1) (.var 1))) (.mul (.num 16 1) (.pow (.var 1) 2))) (.mul (.num 4 1) (.pow (.var 1) 3)))))))) (.mul (.num 6 1) (.sqrt (.div (.mul (.mul (.var 0) (.pow (.add (.neg (.num 1 1)) (.var 1)) 2)) (.add (.neg (.num 1 1)) (.mul (.num 2 1) (.var 1)))) (.mul (.mul (.mul (.add (.num 1 1) (.var 0)) (.var 1)) (.pow (.add (.num 1 1) (.var 1)) 3)) (.add (.add (.add (.num 6 1) (.mul (.num 19 1) (.var 1))) (.mul (.num 16 1) (.pow (.var 1) 2))) (.mul (.num 4 1) (.pow (.var 1) 3)))))))) (.mul (.num 6 1) (.sqrt (.div (.mul (.mul (.var 0) (.pow (.add (.neg (.num 1 1)) (.var 1)) 2)) (.add (.neg (.num 1 1)) (.mul (.num 2 1) (.var 1)))) (.mul (.mul (.mul (.mul (.add (.num 1 1) (.var 0)) (.pow (.add (.num 1 1) (.mul (.num 2 1) (.var 0))) 2)) (.var 1)) (.pow (.add (.num 1 1) (.var 1)) 3)) (.add (.add (.add (.num 6 1) (.mul (.num 19 1) (.var 1))) (.mul (.num 16 1) (.pow (.var 1) 2))) (.mul (.num 4 1) (.pow (.var 1) 3)))))))) (.mul (.mul (.mul (.mul (.num 2 1) (.add (.neg (.num 1 1)) (.var 1))) (.var 1)) (.add (.neg (.num 1 1)) (.mul (.num 2 1) (.var 1)))) (.sqrt (.div (.var 0) (.mul (.mul (.mul (.add (.num 1 1) (.var 0)) (.var 1)) (.pow (.add (.num 1 1) (.var 1)) 3)) (.add (.add (.add (.sub (.neg (.num 6 1)) (.mul (.num 7 1) (.var 1))) (.mul (.num 22 1) (.pow (.var 1) 2))) (.mul (.num 28 1) (.pow (.var 1) 3))) (.mul (.num 8 1) (.pow (.var 1) 4)))))))) (.mul (.mul (.mul (.mul (.num 2 1) (.add (.neg (.num 1 1)) (.var 1))) (.var 1)) (.add (.neg (.num 1 1)) (.mul (.num 2 1) (.var 1)))) (.sqrt (.div (.var 0) (.mul (.mul (.mul (.mul (.add (.num 1 1) (.var 0)) (.pow (.add (.num 1 1) (.mul (.num 2 1) (.var 0))) 2)) (.var 1)) (.pow (.add (.num 1 1) (.var 1)) 3)) (.add (.add (.add (.sub (.neg (.num 6 1)) (.mul (.num 7 1) (.var 1))) (.mul (.num 22 1) (.pow (.var 1) 2))) (.mul (.num 28 1) (.pow (.var 1) 3))) (.mul (.num 8 1) (.pow (.var 1) 4)))))))) (.div (.mul (.pow (.sub (.num 1 1) (.mul (.num 2 1) (.var 1))) 2) (.add (.neg (.num 4 1)) (.var 1))) (.mul (.mul (.add (.num 1 1) (.mul (.num 2 1) (.var 0))) (.add (.num 1 1) (.var 1))) (.sqrt (.div (.mul (.mul (.add (.num 1 1) (.var 0)) (.var 1)) (.add (.add (.add (.add (.sub (.neg (.num 6 1)) (.mul (.num 13 1) (.var 1))) (.mul (.num 15 1) (.pow (.var 1) 2))) (.mul (.num 50 1) (.pow (.var 1) 3))) (.mul (.num 36 1) (.pow (.var 1) 4))) (.mul (.num 8 1) (.pow (.var 1) 5)))) (.var 0)))))),
  .div (.mul (.sqrt (.add (.add (.num 3 1) (.mul (.num 5 1) (.var 1))) (.mul (.num 2 1) (.pow (.var 1) 2)))) (.sub (.sub (.sub (.add (.sub (.div (.mul (.neg (.num 72 1)) (.sqrt (.div (.mul (.mul (.var 0) (.var 1)) (.add (.neg (.num 1 1)) (.mul (.num 2 1) (.var 1)))) (.mul (.mul (.add (.num 1 1) (.var 0)) (.pow (.add (.num 1 1) (.var 1)) 3)) (.add (.add (.add (.num 10 1) (.mul (.num 29 1) (.var 1))) (.mul (.num 20 1) (.pow (.var 1) 2))) (.mul (.num 4 1) (.pow (.var 1) 3))))))) (.add (.num 3 1) (.mul (.num 2 1) (.var 1)))) (.div (.num 72 1) (.mul (.mul (.add (.num 1 1) (.mul (.num 2 1) (.var 0))) (.add (.num 1 1) (.var 1))) (.sqrt (.div (.mul (.mul (.mul (.add (.num 1 1) (.var 0)) (.add (.num 1 1) (.var 1))) (.pow (.add (.num 3 1) (.mul (.num 2 1) (.var 1))) 2)) (.add (.add (.add (.num 10 1) (.mul (.num 29 1) (.var 1))) (.mul (.num 20 1) (.pow (.var 1) 2))) (.mul (.num 4 1) (.pow (.var 1) 3)))) (.mul (.mul (.var 0) (.var 1)) (.add (.neg (.num 1 1)) (.mul (.num 2 1) (.var 1))))))))) (.div (.mul (.mul (.num 18 1) (.sub (.num 1 1) (.mul (.num 2 1) (.var 1)))) (.add (.neg (.num 3 1)) (.mul (.num 2 1) (.var 1)))) (.sqrt (.div (.mul (.mul (.mul (.mul (.add (.num 1 1) (.var 0)) (.pow (.add (.num 1 1) (.var 1)) 3)) (.add (.neg (.num 1 1)) (.mul (.num 2 1) (.var 1)))) (.pow (.add (.num 3 1) (.mul (.num 2 1) (.var 1))) 2)) (.add (.add (.add (.num 10 1) (.mul (.num 29 1) (.var 1))) (.mul (.num 20 1) (.pow (.var 1) 2))) (.mul (.num 4 1) (.pow (.var 1) 3)))) (.mul (.var 0) (.var 1)))))) (.div (.mul (.mul (.num 18 1) (.add (.neg (.num 3 1)) (.mul (.num 2 1) (.var 1)))) (.add (.neg (.num 1 1)) (.mul (.num 2 1) (.var 1)))) (.sqrt (.div (.mul (.mul (.mul (.mul (.mul (.add (.num 1 1) (.var 0)) (.pow (.add (.num 1 1) (.mul (.num 2 1) (.var 0))) 2)) (.pow (.add (.num 1 1) (.var 1)) 3)) (.add (.neg (.num 1 1)) (.mul (.num 2 1) (.var 1)))) (.pow (.add (.num 3 1) (.mul (.num 2 1) (.var 1))) 2)) (.add (.add (.add (.num 10 1) (.mul (.num 29 1) (.var 1))) (.mul (.num 20 1) (.pow (.var 1) 2))) (.mul (.num 4 1) (.pow (.var 1) 3)))) (.mul (.var 0) (.var 1)))))) (.div (.mul (.mul (.mul (.num 2 1) (.var 1)) (.add (.neg (.num 1 1)) (.mul (.num 2 1) (.var 1)))) (.add (.sub (.num 1 1) (.mul (.num 9 1) (.var 1))) (.mul (.num 2 1) (.pow (.var 1) 2)))) (.sqrt (.div (.mul (.mul (.mul (.mul (.mul (.add (.num 1 1) (.var 0)) (.var 1)) (.pow (.add (.num 1 1) (.var 1)) 3)) (.add (.neg (.num 1 1)) (.mul (.num 2 1) (.var 1)))) (.pow (.add (.num 3 1) (.mul (.num 2 1) (.var 1))) 2)) (.add (.add (.add (.num 10 1) (.mul (.num 29 1) (.var 1))) (.mul (.num 20 1) (.pow (.var 1) 2))) (.mul (.num 4 1) (.pow (.var 1) 3)))) (.var 0))))) (.mul (.mul (.mul (.mul (.num 2 1) (.var 1)) (.add (.neg (.num 1 1)) (.mul (.num 2 1) (.var 1)))) (.add (.sub (.num 1 1) (.mul (.num 9 1) (.var 1))) (.mul (.num 2 1) (.pow (.var 1) 2)))) (.sqrt (.div (.var 0) (.mul (.mul (.mul (.mul (.mul (.add (.num 1 1) (.var 0)) (.pow (.add (.num 1 1) (.mul (.num 2 1) (.var 0))) 2)) (.var 1)) (.pow (.add (.num 1 1) (.var 1)) 3)) (.pow (.add (.num 3 1) (.mul (.num 2 1) (.var 1))) 2)) (.add (.add (.add (.sub (.neg (.num 10 1)) (.mul (.num 9 1) (.var 1))) (.mul (.num 38 1) (.pow (.var 1) 2))) (.mul (.num 36 1) (.pow (.var 1) 3))) (.mul (.num 8 1) (.pow (.var 1) 4))))))))) (.num 2 1),
  .mul (.mul (.num 3 1) (.sqrt (.add (.add (.num 3 1) (.mul (.num 5 1) (.var 1))) (.mul (.num 2 1) (.pow (.var 1) 2))))) (.sub (.sub (.sub (.sub (.sub (.sub (.add (.mul (.mul (.mul (.num 2 1) (.add (.neg (.num 1 1)) (.var 1))) (.var 1)) (.sqrt (.div (.var 0) (.mul (.mul (.mul (.add (.num 1 1) (.var 0)) (.pow (.add (.num 1 1) (.var 1)) 3)) (.pow (.add (.num 2 1) (.var 1)) 2)) (.add (.num 3 1) (.mul (.num 2 1) (.var 1))))))) (.mul (.mul (.mul (.num 2 1) (.add (.neg (.num 1 1)) (.var 1))) (.var 1)) (.sqrt (.div (.var 0) (.mul (.mul (.mul (.mul (.add (.num 1 1) (.var 0)) (.pow (.add (.num 1 1) (.mul (.num 2 1) (.var 0))) 2)) (.pow (.add (.num 1 1) (.var 1)) 3)) (.pow (.add (.num 2 1) (.var 1)) 2)) (.add (.num 3 1) (.mul (.num 2 1) (.var 1)))))))) (.mul (.mul (.add (.neg (.num 4 1)) (.var 1)) (.var 1)) (.sqrt (.div (.mul (.var 0) (.pow (.sub (.num 1 1) (.mul (.num 2 1) (.var 1))) 2)) (.mul (.mul (.mul (.add (.num 1 1) (.var 0)) (.pow (.add (.num 1 1) (.var 1)) 3)) (.add (.num 3 1) (.mul (.num 2 1) (.var 1)))) (.pow (.add (.add (.num 2 1) (.mul (.num 5 1) (.var 1))) (.mul (.num 2 1) (.pow (.var 1) 2))) 2)))))) (.mul (.mul (.add (.neg (.num 4 1)) (.var 1)) (.var 1)) (.sqrt (.div (.mul (.var 0) (.pow (.sub (.num 1 1) (.mul (.num 2 1) (.var 1))) 2)) (.mul (.mul (.mul (.mul (.add (.num 1 1) (.var 0)) (.pow (.add (.num 1 1) (.mul (.num 2 1) (.var 0))) 2)) (.pow (.add (.num 1 1) (.var 1)) 3)) (.add (.num 3 1) (.mul (.num 2 1) (.var 1)))) (.pow (.add (.add (.num 2 1) (.mul (.num 5 1) (.var 1))) (.mul (.num 2 1) (.pow (.var 1) 2))) 2)))))) (.mul (.num 2 1) (.sqrt (.div (.mul (.var 0) (.pow (.add (.sub (.num 1 1) (.mul (.num 3 1) (.var 1))) (.mul (.num 2 1) (.pow (.var 1) 2))) 2)) (.mul (.mul (.mul (.add (.num 1 1) (.var 0)) (.pow (.add (.num 1 1) (.var 1)) 3)) (.add (.num 3 1) (.mul (.num 2 1) (.var 1)))) (.pow (.add (.add (.num 2 1) (.mul (.num 5 1) (.var 1))) (.mul (.num 2 1) (.pow (.var 1) 2))) 2)))))) (.div (.mul (.var 1) (.sqrt (.div (.var 0) (.mul (.add (.num 1 1) (.var 0)) (.add (.add (.num 3 1) (.mul (.num 5 1) (.var 1))) (.mul (.num 2 1) (.pow (.var 1) 2))))))) (.add (.add (.add (.num 2 1) (.mul (.num 4 1) (.var 0))) (.var 1)) (.mul (.mul (.num 2 1) (.var 0)) (.var 1))))) (.div (.mul (.mul (.num 2 1) (.add (.sub (.num 1 1) (.mul (.num 3 1) (.var 1))) (.mul (.num 2 1) (.pow (.var 1) 2)))) (.sqrt (.div (.var 0) (.mul (.mul (.add (.num 1 1) (.var 0)) (.pow (.add (.num 2 1) (.var 1)) 2)) (.add (.add (.num 3 1) (.mul (.num 5 1) (.var 1))) (.mul (.num 2 1) (.pow (.var 1) 2))))))) (.mul (.add (.num 1 1) (.mul (.num 2 1) (.var 0))) (.add (.add (.num 1 1) (.mul (.num 3 1) (.var 1))) (.mul (.num 2 1) (.pow (.var 1) 2)))))) (.div (.var 1) (.mul (.add (.num 2 1) (.var 1)) (.sqrt (.div (.mul (.add (.num 1 1) (.var 0)) (.add (.add (.num 3 1) (.mul (.num 5 1) (.var 1))) (.mul (.num 2 1) (.pow (.var 1) 2)))) (.var 0)))))),
  .mul (.sqrt (.add (.add (.num 9 1) (.mul (.num 15 1) (.var 1))) (.mul (.num 6 1) (.pow (.var 1) 2)))) (.sub (.sub (.sub (.sub (.sub (.add (.add (.neg (.mul (.mul (.var 1) (.add (.sub (.num 1 1) (.mul (.num 9 1) (.var 1))) (.mul (.num 2 1) (.pow (.var 1) 2)))) (.sqrt (.div (.mul (.var 0) (.add (.num 1 1) (.mul (.num 2 1) (.var 1)))) (.mul (.mul (.mul (.add (.num 1 1) (.var 0)) (.var 1)) (.pow (.add (.add (.num 2 1) (.mul (.num 3 1) (.var 1))) (.pow (.var 1) 2)) 3)) (.add (.add (.num 15 1) (.mul (.num 16 1) (.var 1))) (.mul (.num 4 1) (.pow (.var 1) 2)))))))) (.mul (.mul (.var 1) (.add (.neg (.num 1 1)) (.mul (.num 2 1) (.var 1)))) (.sqrt (.div (.mul (.var 0) (.add (.num 1 1) (.mul (.num 2 1) (.var 1)))) (.mul (.mul (.mul (.add (.num 1 1) (.var 0)) (.var 1)) (.pow (.add (.num 2 1) (.var 1)) 3)) (.add (.add (.add (.num 15 1) (.mul (.num 31 1) (.var 1))) (.mul (.num 20 1) (.pow (.var 1) 2))) (.mul (.num 4 1) (.pow (.var 1) 3)))))))) (.mul (.mul (.var 1) (.add (.neg (.num 1 1)) (.mul (.num 2 1) (.var 1)))) (.sqrt (.div (.mul (.var 0) (.add (.num 1 1) (.mul (.num 2 1) (.var 1)))) (.mul (.mul (.mul (.mul (.add (.num 1 1) (.var 0)) (.pow (.add (.num 1 1) (.mul (.num 2 1) (.var 0))) 2)) (.var 1)) (.pow (.add (.num 2 1) (.var 1)) 3)) (.add (.add (.add (.num 15 1) (.mul (.num 31 1) (.var 1))) (.mul (.num 20 1) (.pow (.var 1) 2))) (.mul (.num 4 1) (.pow (.var 1) 3)))))))) (.mul (.mul (.mul (.num 9 1) (.var 1)) (.add (.neg (.num 3 1)) (.mul (.num 2 1) (.var 1)))) (.sqrt (.div (.mul (.var 0) (.var 1)) (.mul (.mul (.add (.num 1 1) (.var 0)) (.pow (.add (.add (.num 2 1) (.mul (.num 3 1) (.var 1))) (.pow (.var 1) 2)) 3)) (.add (.add (.add (.num 15 1) (.mul (.num 46 1) (.var 1))) (.mul (.num 36 1) (.pow (.var 1) 2))) (.mul (.num 8 1) (.pow (.var 1) 3)))))))) (.mul (.num 12 1) (.sqrt (.div (.mul (.mul (.var 0) (.pow (.sub (.num 1 1) (.mul (.num 2 1) (.var 1))) 2)) (.var 1)) (.mul (.mul (.add (.num 1 1) (.var 0)) (.pow (.add (.add (.num 2 1) (.mul (.num 3 1) (.var 1))) (.pow (.var 1) 2)) 3)) (.add (.add (.add (.num 15 1) (.mul (.num 46 1) (.var 1))) (.mul (.num 36 1) (.pow (.var 1) 2))) (.mul (.num 8 1) (.pow (.var 1) 3)))))))) (.mul (.num 12 1) (.sqrt (.div (.mul (.mul (.var 0) (.pow (.sub (.num 1 1) (.mul (.num 2 1) (.var 1))) 2)) (.var 1)) (.mul (.mul (.mul (.add (.num 1 1) (.var 0)) (.pow (.add (.num 1 1) (.mul (.num 2 1) (.var 0))) 2)) (.pow (.add (.add (.num 2 1) (.mul (.num 3 1) (.var 1))) (.pow (.var 1) 2)) 3)) (.add (.add (.add (.num 15 1) (.mul (.num 46 1) (.var 1))) (.mul (.num 36 1) (.pow (.var 1) 2))) (.mul (.num 8 1) (.pow (.var 1) 3)))))))) (.div (.mul (.mul (.mul (.var 1) (.add (.num 1 1) (.mul (.num 2 1) (.var 1)))) (.add (.sub (.num 1 1) (.mul (.num 9 1) (.var 1))) (.mul (.num 2 1) (.pow (.var 1) 2)))) (.sqrt (.div (.var 0) (.mul (.mul (.mul (.add (.num 1 1) (.var 0)) (.pow (.add (.num 1 1) (.mul (.num 2 1) (.var 0))) 2)) (.var 1)) (.add (.add (.add (.add (.add (.num 30 1) (.mul (.num 137 1) (.var 1))) (.mul (.num 225 1) (.pow (.var 1) 2))) (.mul (.num 170 1) (.pow (.var 1) 3))) (.mul (.num 60 1) (.pow (.var 1) 4))) (.mul (.num 8 1) (.pow (.var 1) 5))))))) (.add (.add (.num 2 1) (.mul (.num 3 1) (.var 1))) (.pow (.var 1) 2)))) (.div (.mul (.mul (.num 9 1) (.pow (.var 1) 2)) (.add (.neg (.num 3 1)) (.mul (.num 2 1) (.var 1)))) (.mul (.mul (.add (.num 1 1) (.mul (.num 2 1) (.var 0))) (.add (.add (.num 2 1) (.mul (.num 3 1) (.var 1))) (.pow (.var 1) 2))) (.sqrt (.div (.mul (.mul (.add (.num 1 1) (.var 0)) (.var 1)) (.add (.add (.add (.add (.add (.num 30 1) (.mul (.num 137 1) (.var 1))) (.mul (.num 225 1) (.pow (.var 1) 2))) (.mul (.num 170 1) (.pow (.var 1) 3))) (.mul (.num 60 1) (.pow (.var 1) 4))) (.mul (.num 8 1) (.pow (.var 1) 5)))) (.var 0)))))),
  .div (.mul (.sqrt (.add (.add (.num 3 1) (.mul (.num 5 1) (.var 1))) (.mul (.num 2 1) (.pow (.var 1) 2)))) (.sub (.sub (.sub (.sub (.sub (.sub (.sub (.div (.mul (.mul (.neg (.num 2 1)) (.add (.neg (.num 3 1)) (.var 1))) (.var 1)) (.sqrt (.div (.mul (.mul (.mul (.mul (.mul (.add (.num 1 1) (.var 0)) (.var 1)) (.pow (.add (.num 2 1) (.var 1)) 3)) (.add (.num 3 1) (.var 1))) (.add (.num 3 1) (.mul (.num 2 1) (.var 1)))) (.pow (.add (.num 5 1) (.mul (.num 2 1) (.var 1))) 2)) (.mul (.var 0) (.pow (.add (.num 1 1) (.mul (.num 2 1) (.var 1))) 2))))) (.div (.mul (.mul (.num 2 1) (.add (.neg (.num 3 1)) (.var 1))) (.var 1)) (.sqrt (.div (.mul (.mul (.mul (.mul (.mul (.mul (.add (.num 1 1) (.var 0)) (.pow (.add (.num 1 1) (.mul (.num 2 1) (.var 0))) 2)) (.var 1)) (.pow (.add (.num 2 1) (.var 1)) 3)) (.add (.num 3 1) (.var 1))) (.add (.num 3 1) (.mul (.num 2 1) (.var 1)))) (.pow (.add (.num 5 1) (.mul (.num 2 1) (.var 1))) 2)) (.mul (.var 0) (.pow (.add (.num 1 1) (.mul (.num 2 1) (.var 1))) 2)))))) (.div (.mul (.mul (.num 36 1) (.var 1)) (.add (.neg (.num 1 1)) (.mul (.num 3 1) (.var 1)))) (.sqrt (.div (.mul (.mul (.mul (.mul (.mul (.mul (.add (.num 1 1) (.var 0)) (.var 1)) (.pow (.add (.num 1 1) (.var 1)) 2)) (.pow (.add (.num 2 1) (.var 1)) 3)) (.add (.num 3 1) (.var 1))) (.add (.num 3 1) (.mul (.num 2 1) (.var 1)))) (.pow (.add (.num 5 1) (.mul (.num 2 1) (.var 1))) 2)) (.var 0))))) (.div (.num 120 1) (.sqrt (.div (.mul (.mul (.mul (.mul (.add (.num 1 1) (.var 0)) (.pow (.add (.num 2 1) (.var 1)) 3)) (.add (.num 3 1) (.var 1))) (.add (.num 3 1) (.mul (.num 2 1) (.var 1)))) (.pow (.add (.add (.num 5 1) (.mul (.num 7 1) (.var 1))) (.mul (.num 2 1) (.pow (.var 1) 2))) 2)) (.mul (.var 0) (.var 1)))))) (.div (.mul (.mul (.mul (.num 36 1) (.var 1)) (.add (.neg (.num 1 1)) (.mul (.num 3 1) (.var 1)))) (.sqrt (.div (.var 0) (.mul (.mul (.mul (.mul (.mul (.add (.num 1 1) (.var 0)) (.pow (.add (.num 1 1) (.mul (.num 2 1) (.var 0))) 2)) (.var 1)) (.add (.num 2 1) (.var 1))) (.pow (.add (.num 5 1) (.mul (.num 2 1) (.var 1))) 2)) (.add (.add (.num 9 1) (.mul (.num 9 1) (.var 1))) (.mul (.num 2 1) (.pow (.var 1) 2))))))) (.add (.add (.num 2 1) (.mul (.num 3 1) (.var 1))) (.pow (.var 1) 2)))) (.mul (.num 120 1) (.sqrt (.div (.mul (.var 0) (.var 1)) (.mul (.mul (.mul (.mul (.add (.num 1 1) (.var 0)) (.pow (.add (.num 1 1) (.mul (.num 2 1) (.var 0))) 2)) (.pow (.add (.num 2 1) (.var 1)) 3)) (.pow (.add (.add (.num 5 1) (.mul (.num 7 1) (.var 1))) (.mul (.num 2 1) (.pow (.var 1) 2))) 2)) (.add (.add (.num 9 1) (.mul (.num 9 1) (.var 1))) (.mul (.num 2 1) (.pow (.var 1) 2)))))))) (.div (.mul (.mul (.mul (.num 18 1) (.add (.neg (.num 1 1)) (.var 1))) (.var 1)) (.add (.num 1 1) (.mul (.num 2 1) (.var 1)))) (.mul (.add (.add (.num 2 1) (.mul (.num 3 1) (.var 1))) (.pow (.var 1) 2)) (.sqrt (.div (.mul (.mul (.mul (.mul (.add (.num 1 1) (.var 0)) (.var 1)) (.add (.num 2 1) (.var 1))) (.pow (.add (.num 5 1) (.mul (.num 2 1) (.var 1))) 2)) (.add (.add (.num 9 1) (.mul (.num 9 1) (.var 1))) (.mul (.num 2 1) (.pow (.var 1) 2)))) (.var 0)))))) (.div (.mul (.mul (.mul (.mul (.num 18 1) (.add (.neg (.num 1 1)) (.var 1))) (.var 1)) (.add (.num 1 1) (.mul (.num 2 1) (.var 1)))) (.sqrt (.div (.var 0) (.mul (.mul (.mul (.add (.num 1 1) (.var 0)) (.pow (.add (.num 1 1) (.mul (.num 2 1) (.var 0))) 2)) (.var 1)) (.add (.add (.add (.num 18 1) (.mul (.num 27 1) (.var 1))) (.mul (.num 13 1) (.pow (.var 1) 2))) (.mul (.num 2 1) (.pow (.var 1) 3))))))) (.mul (.add (.num 5 1) (.mul (.num 2 1) (.var 1))) (.add (.add (.num 2 1) (.mul (.num 3 1) (.var 1))) (.pow (.var 1) 2)))))) (.num 2 1),
  .mul (.mul (.sqrt (.num 6 1)) (.sqrt (.add (.add (.num 3 1) (.mul (.num 5 1) (.var 1))) (.mul (.num 2 1) (.pow (.var 1) 2))))) (.sub (.sub (.sub (.sub (.add (.add (.sub (.sub (.add (.mul (.add (.neg (.num 1 1)) (.mul (.num 2 1) (.var 1))) (.sqrt (.div (.mul (.var 0) (.add (.num 1 1) (.mul (.num 2 1) (.var 1)))) (.mul (.mul (.add (.num 1 1) (.var 0)) (.pow (.add (.num 2 1) (.var 1)) 3)) (.pow (.add (.num 5 1) (.mul (.num 2 1) (.var 1))) 2))))) (.mul (.add (.neg (.num 1 1)) (.mul (.num 2 1) (.var 1))) (.sqrt (.div (.mul (.var 0) (.add (.num 1 1) (.mul (.num 2 1) (.var 1)))) (.mul (.mul (.mul (.add (.num 1 1) (.var 0)) (.pow (.add (.num 1 1) (.mul (.num 2 1) (.var 0))) 2)) (.pow (.add (.num 2 1) (.var 1)) 3)) (.pow (.add (.num 5 1) (.mul (.num 2 1) (.var 1))) 2)))))) (.div (.sqrt (.div (.add (.var 0) (.mul (.mul (.num 2 1) (.var 0)) (.var 1))) (.add (.add (.add (.num 2 1) (.mul (.num 2 1) (.var 0))) (.var 1)) (.mul (.var 0) (.var 1))))) (.add (.num 5 1) (.mul (.num 2 1) (.var 1))))) (.div (.sqrt (.div (.mul (.var 0) (.add (.num 1 1) (.mul (.num 2 1) (.var 1)))) (.mul (.add (.num 1 1) (.var 0)) (.add (.num 2 1) (.var 1))))) (.add (.add (.add (.num 5 1) (.mul (.num 10 1) (.var 0))) (.mul (.num 2 1) (.var 1))) (.mul (.mul (.num 4 1) (.var 0)) (.var 1))))) (.mul (.sub (.add (.neg (.num 1 1)) (.mul (.num 9 1) (.var 1))) (.mul (.num 2 1) (.pow (.var 1) 2))) (.sqrt (.div (.mul (.var 0) (.add (.num 1 1) (.mul (.num 2 1) (.var 1)))) (.mul (.mul (.add (.num 1 1) (.var 0)) (.pow (.add (.num 2 1) (.var 1)) 3)) (.pow (.add (.add (.num 15 1) (.mul (.num 16 1) (.var 1))) (.mul (.num 4 1) (.pow (.var 1) 2))) 2)))))) (.mul (.sub (.add (.neg (.num 1 1)) (.mul (.num 9 1) (.var 1))) (.mul (.num 2 1) (.pow (.var 1) 2))) (.sqrt (.div (.mul (.var 0) (.add (.num 1 1) (.mul (.num 2 1) (.var 1)))) (.mul (.mul (.mul (.add (.num 1 1) (.var 0)) (.pow (.add (.num 1 1) (.mul (.num 2 1) (.var 0))) 2)) (.pow (.add (.num 2 1) (.var 1)) 3)) (.pow (.add (.add (.num 15 1) (.mul (.num 16 1) (.var 1))) (.mul (.num 4 1) (.pow (.var 1) 2))) 2)))))) (.mul (.num 6 1) (.sqrt (.div (.mul (.mul (.var 0) (.pow (.sub (.num 1 1) (.mul (.num 2 1) (.var 1))) 2)) (.pow (.var 1) 2)) (.mul (.mul (.mul (.add (.num 1 1) (.var 0)) (.pow (.add (.num 2 1) (.var 1)) 3)) (.add (.num 1 1) (.mul (.num 2 1) (.var 1)))) (.pow (.add (.add (.add (.num 15 1) (.mul (.num 31 1) (.var 1))) (.mul (.num 20 1) (.pow (.var 1) 2))) (.mul (.num 4 1) (.pow (.var 1) 3))) 2)))))) (.mul (.mul (.num 3 1) (.add (.neg (.num 3 1)) (.mul (.num 2 1) (.var 1)))) (.sqrt (.div (.mul (.mul (.var 0) (.pow (.var 1) 2)) (.add (.num 1 1) (.mul (.num 2 1) (.var 1)))) (.mul (.mul (.add (.num 1 1) (.var 0)) (.pow (.add (.num 2 1) (.var 1)) 3)) (.pow (.add (.add (.add (.num 15 1) (.mul (.num 31 1) (.var 1))) (.mul (.num 20 1) (.pow (.var 1) 2))) (.mul (.num 4 1) (.pow (.var 1) 3))) 2)))))) (.mul (.mul (.num 3 1) (.add (.neg (.num 3 1)) (.mul (.num 2 1) (.var 1)))) (.sqrt (.div (.mul (.mul (.var 0) (.pow (.var 1) 2)) (.add (.num 1 1) (.mul (.num 2 1) (.var 1)))) (.mul (.mul (.mul (.add (.num 1 1) (.var 0)) (.pow (.add (.num 1 1) (.mul (.num 2 1) (.var 0))) 2)) (.pow (.add (.num 2 1) (.var 1)) 3)) (.pow (.add (.add (.add (.num 15 1) (.mul (.num 31 1) (.var 1))) (.mul (.num 20 1) (.pow (.var 1) 2))) (.mul (.num 4 1) (.pow (.var 1) 3))) 2)))))) (.div (.mul (.mul (.mul (.num 6 1) (.var 1)) (.add (.neg (.num 1 1)) (.mul (.num 2 1) (.var 1)))) (.sqrt (.div (.var 0) (.mul (.mul (.add (.num 1 1) (.var 0)) (.add (.add (.num 2 1) (.mul (.num 5 1) (.var 1))) (.mul (.num 2 1) (.pow (.var 1) 2)))) (.pow (.add (.add (.add (.num 15 1) (.mul (.num 31 1) (.var 1))) (.mul (.num 20 1) (.pow (.var 1) 2))) (.mul (.num 4 1) (.pow (.var 1) 3))) 2))))) (.mul (.add (.num 1 1) (.mul (.num 2 1) (.var 0))) (.add (.num 2 1) (.var 1))))),
  .mul (.sqrt (.add (.add (.num 6 1) (.mul (.num 10 1) (.var 1))) (.mul (.num 4 1) (.pow (.var 1) 2)))) (.sub (.sub (.sub (.sub (.add (.add (.sub (.sub (.sub (.neg (.div (.mul (.mul (.add (.neg (.num 3 1)) (.var 1)) (.add (.num 1 1) (.mul (.num 2 1) (.var 1)))) (.sqrt (.div (.mul (.var 0) (.add (.num 3 1) (.mul (.num 2 1) (.var 1)))) (.mul (.mul (.mul (.add (.num 1 1) (.var 0)) (.pow (.add (.num 1 1) (.mul (.num 2 1) (.var 0))) 2)) (.add (.num 2 1) (.var 1))) (.pow (.add (.num 3 1) (.var 1)) 2))))) (.add (.add (.num 10 1) (.mul (.num 9 1) (.var 1))) (.mul (.num 2 1) (.pow (.var 1) 2))))) (.div (.mul (.mul (.mul (.num 9 1) (.add (.neg (.num 1 1)) (.var 1))) (.add (.num 1 1) (.mul (.num 2 1) (.var 1)))) (.sqrt (.div (.var 0) (.mul (.mul (.mul (.add (.num 1 1) (.var 0)) (.pow (.add (.num 1 1) (.mul (.num 2 1) (.var 0))) 2)) (.pow (.add (.num 3 1) (.var 1)) 2)) (.add (.add (.num 6 1) (.mul (.num 7 1) (.var 1))) (.mul (.num 2 1) (.pow (.var 1) 2))))))) (.add (.add (.num 10 1) (.mul (.num 9 1) (.var 1))) (.mul (.num 2 1) (.pow (.var 1) 2))))) (.mul (.mul (.num 9 1) (.add (.neg (.num 1 1)) (.var 1))) (.sqrt (.div (.mul (.var 0) (.pow (.add (.num 1 1) (.mul (.num 2 1) (.var 1))) 2)) (.mul (.mul (.mul (.add (.num 1 1) (.var 0)) (.pow (.add (.num 2 1) (.var 1)) 3)) (.add (.num 3 1) (.mul (.num 2 1) (.var 1)))) (.pow (.add (.add (.num 15 1) (.mul (.num 11 1) (.var 1))) (.mul (.num 2 1) (.pow (.var 1) 2))) 2)))))) (.mul (.add (.neg (.num 3 1)) (.var 1)) (.sqrt (.div (.mul (.mul (.var 0) (.pow (.add (.num 1 1) (.mul (.num 2 1) (.var 1))) 2)) (.add (.num 3 1) (.mul (.num 2 1) (.var 1)))) (.mul (.mul (.add (.num 1 1) (.var 0)) (.pow (.add (.num 2 1) (.var 1)) 3)) (.pow (.add (.add (.num 15 1) (.mul (.num 11 1) (.var 1))) (.mul (.num 2 1) (.pow (.var 1) 2))) 2)))))) (.sqrt (.div (.mul (.mul (.var 0) (.pow (.add (.num 1 1) (.mul (.num 2 1) (.var 1))) 2)) (.add (.num 3 1) (.mul (.num 2 1) (.var 1)))) (.mul (.mul (.add (.num 1 1) (.var 0)) (.add (.num 2 1) (.var 1))) (.pow (.add (.add (.num 15 1) (.mul (.num 11 1) (.var 1))) (.mul (.num 2 1) (.pow (.var 1) 2))) 2))))) (.sqrt (.div (.mul (.mul (.var 0) (.pow (.add (.num 1 1) (.mul (.num 2 1) (.var 1))) 2)) (.add (.num 3 1) (.mul (.num 2 1) (.var 1)))) (.mul (.mul (.mul (.add (.num 1 1) (.var 0)) (.pow (.add (.num 1 1) (.mul (.num 2 1) (.var 0))) 2)) (.add (.num 2 1) (.var 1))) (.pow (.add (.add (.num 15 1) (.mul (.num 11 1) (.var 1))) (.mul (.num 2 1) (.pow (.var 1) 2))) 2))))) (.mul (.num 30 1) (.sqrt (.div (.mul (.var 0) (.pow (.var 1) 2)) (.mul (.mul (.mul (.mul (.add (.num 1 1) (.var 0)) (.pow (.add (.num 1 1) (.mul (.num 2 1) (.var 0))) 2)) (.pow (.add (.num 2 1) (.var 1)) 3)) (.add (.num 3 1) (.mul (.num 2 1) (.var 1)))) (.pow (.add (.add (.add (.num 15 1) (.mul (.num 26 1) (.var 1))) (.mul (.num 13 1) (.pow (.var 1) 2))) (.mul (.num 2 1) (.pow (.var 1) 3))) 2)))))) (.mul (.mul (.num 6 1) (.add (.neg (.num 1 1)) (.mul (.num 3 1) (.var 1)))) (.sqrt (.div (.mul (.var 0) (.pow (.add (.num 1 1) (.mul (.num 2 1) (.var 1))) 2)) (.mul (.mul (.mul (.add (.num 1 1) (.var 0)) (.pow (.add (.num 2 1) (.var 1)) 3)) (.add (.num 3 1) (.mul (.num 2 1) (.var 1)))) (.pow (.add (.add (.add (.num 15 1) (.mul (.num 26 1) (.var 1))) (.mul (.num 13 1) (.pow (.var 1) 2))) (.mul (.num 2 1) (.pow (.var 1) 3))) 2)))))) (.mul (.mul (.num 6 1) (.add (.neg (.num 1 1)) (.mul (.num 3 1) (.var 1)))) (.sqrt (.div (.mul (.var 0) (.pow (.add (.num 1 1) (.mul (.num 2 1) (.var 1))) 2)) (.mul (.mul (.mul (.mul (.add (.num 1 1) (.var 0)) (.pow (.add (.num 1 1) (.mul (.num 2 1) (.var 0))) 2)) (.pow (.add (.num 2 1) (.var 1)) 3)) (.add (.num 3 1) (.mul (.num 2 1) (.var 1)))) (.pow (.add (.add (.add (.num 15 1) (.mul (.num 26 1) (.var 1))) (.mul (.num 13 1) (.pow (.var 1) 2))) (.mul (.num 2 1) (.pow (.var 1) 3))) 2)))))) (.div (.mul (.mul (.num 30 1) (.var 1)) (.sqrt (.div (.var 0) (.mul (.mul (.add (.num 1 1) (.var 0)) (.pow (.add (.num 2 1) (.var 1)) 3)) (.add (.num 3 1) (.mul (.num 2 1) (.var 1))))))) (.add (.add (.add (.num 15 1) (.mul (.num 26 1) (.var 1))) (.mul (.num 13 1) (.pow (.var 1) 2))) (.mul (.num 2 1) (.pow (.var 1) 3))))),
  .div (.mul (.mul (.neg (.num 2 1)) (.sqrt (.add (.num 1 1) (.mul (.num 2 1) (.var 1))))) (.add (.add (.add (.add (.mul (.num 90 1) (.sqrt (.div (.mul (.mul (.var 0) (.add (.num 1 1) (.var 0))) (.add (.num 5 1) (.mul (.num 2 1) (.var 1)))) (.add (.num 1 1) (.mul (.num 2 1) (.var 1)))))) (.mul (.num 120 1) (.sqrt (.mul (.mul (.var 0) (.add (.num 1 1) (.var 0))) (.add (.add (.num 5 1) (.mul (.num 12 1) (.var 1))) (.mul (.num 4 1) (.pow (.var 1) 2))))))) (.mul (.mul (.num 79 1) (.var 1)) (.sqrt (.mul (.mul (.var 0) (.add (.num 1 1) (.var 0))) (.add (.add (.num 5 1) (.mul (.num 12 1) (.var 1))) (.mul (.num 4 1) (.pow (.var 1) 2))))))) (.mul (.mul (.num 21 1) (.pow (.var 1) 2)) (.sqrt (.mul (.mul (.var 0) (.add (.num 1 1) (.var 0))) (.add (.add (.num 5 1) (.mul (.num 12 1) (.var 1))) (.mul (.num 4 1) (.pow (.var 1) 2))))))) (.mul (.mul (.num 2 1) (.pow (.var 1) 3)) (.sqrt (.mul (.mul (.var 0) (.add (.num 1 1) (.var 0))) (.add (.add (.num 5 1) (.mul (.num 12 1) (.var 1))) (.mul (.num 4 1) (.pow (.var 1) 2)))))))) (.mul (.mul (.mul (.add (.num 1 1) (.mul (.num 2 1) (.var 0))) (.add (.num 2 1) (.var 1))) (.hpow (.add (.num 5 1) (.mul (.num 2 1) (.var 1))) 1)) (.add (.add (.num 21 1) (.mul (.num 13 1) (.var 1))) (.mul (.num 2 1) (.pow (.var 1) 2)))),
  .div (.num 1 1) (.sqrt (.div (.mul (.mul (.var 0) (.add (.num 1 1) (.mul (.num 2 1) (.var 0)))) (.pow (.add (.num 1 1) (.mul (.num 2 1) (.var 1))) 2)) (.add (.add (.neg (.num 3 1)) (.mul (.num 4 1) (.var 1))) (.mul (.num 4 1) (.pow (.var 1) 2))))),
  .div (.add (.mul (.num 2 1) (.sqrt (.div (.var 1) (.add (.num 2 1) (.var 1))))) (.sqrt (.div (.pow (.var 1) 3) (.add (.num 2 1) (.var 1))))) (.add (.num 1 1) (.var 1)),
  .neg (.div (.num 1 1) (.mul (.add (.num 1 1) (.var 1)) (.sqrt (.div (.mul (.mul (.var 0) (.add (.num 1 1) (.mul (.num 2 1) (.var 0)))) (.add (.num 1 1) (.mul (.num 2 1) (.var 1)))) (.add (.num 3 1) (.mul (.num 2 1) (.var 1))))))),
  .div (.add (.mul (.num 2 1) (.sqrt (.div (.var 1) (.mul (.add (.var 0) (.mul (.num 2 1) (.pow (.var 0) 2))) (.add (.num 2 1) (.var 1)))))) (.sqrt (.div (.pow (.var 1) 3) (.mul (.add (.var 0) (.mul (.num 2 1) (.pow (.var 0) 2))) (.add (.num 2 1) (.var 1)))))) (.add (.num 1 1) (.var 1)),
  .div (.num 1 1) (.mul (.sqrt (.mul (.var 0) (.add (.num 1 1) (.mul (.num 2 1) (.var 0))))) (.add (.add (.num 1 1) (.mul (.num 3 1) (.var 1))) (.mul (.num 2 1) (.pow (.var 1) 2)))),
  .neg (.div (.num 1 1) (.mul (.sqrt (.mul (.var 0) (.add (.num 1 1) (.mul (.num 2 1) (.var 0))))) (.add (.num 1 1) (.var 1)))),
  .div (.add (.sub (.sqrt (.div (.mul (.mul (.add (.neg (.num 1 1)) (.mul (.num 2 1) (.var 0))) (.var 1)) (.add (.neg (.num 1 1)) (.mul (.num 2 1) (.var 1)))) (.mul (.mul (.var 0) (.add (.num 1 1) (.mul (.num 2 1) (.var 0)))) (.add (.add (.num 1 1) (.mul (.num 3 1) (.var 1))) (.mul (.num 2 1) (.pow (.var 1) 2)))))) (.sqrt (.div (.mul (.mul (.var 0) (.var 1)) (.add (.neg (.num 1 1)) (.mul (.num 2 1) (.var 1)))) (.mul (.add (.neg (.num 1 1)) (.mul (.num 4 1) (.pow (.var 0) 2))) (.add (.add (.num 1 1) (.mul (.num 3 1) (.var 1))) (.mul (.num 2 1) (.pow (.var 1) 2))))))) (.mul (.mul (.num 2 1) (.var 0)) (.sqrt (.div (.mul (.mul (.var 0) (.var 1)) (.add (.neg (.num 1 1)) (.mul (.num 2 1) (.var 1)))) (.mul (.add (.neg (.num 1 1)) (.mul (.num 4 1) (.pow (.var 0) 2))) (.add (.add (.num 1 1) (.mul (.num 3 1) (.var 1))) (.mul (.num 2 1) (.pow (.var 1) 2)))))))) (.sqrt (.div (.mul (.mul (.add (.num 1 1) (.var 0)) (.var 1)) (.add (.num 1 1) (.mul (.num 2 1) (.var 1)))) (.add (.add (.num 3 1) (.mul (.num 5 1) (.var 1))) (.mul (.num 2 1) (.pow (.var 1) 2))))),
  .div (.num 1 1) (.sqrt (.div (.mul (.mul (.add (.num 1 1) (.var 0)) (.add (.num 1 1) (.mul (.num 2 1) (.var 0)))) (.pow (.add (.num 1 1) (.mul (.num 2 1) (.var 1))) 2)) (.add (.add (.neg (.num 3 1)) (.mul (.num 4 1) (.var 1))) (.mul (.num 4 1) (.pow (.var 1) 2))))),
  .div (.mul (.sqrt (.add (.add (.num 3 1) (.mul (.num 5 1) (.var 1))) (.mul (.num 2 1) (.pow (.var 1) 2)))) (.add (.sub (.add (.neg (.sqrt (.div (.mul (.add (.add (.neg (.num 1 1)) (.var 0)) (.mul (.num 2 1) (.pow (.var 0) 2))) (.add (.num 1 1) (.var 1))) (.mul (.add (.var 0) (.mul (.num 2 1) (.pow (.var 0) 2))) (.add (.num 1 1) (.mul (.num 2 1) (.var 1))))))) (.mul (.var 0) (.sqrt (.div (.mul (.add (.num 1 1) (.var 0)) (.add (.num 1 1) (.var 1))) (.mul (.add (.neg (.var 0)) (.mul (.num 4 1) (.pow (.var 0) 3))) (.add (.num 1 1) (.mul (.num 2 1) (.var 1)))))))) (.mul (.mul (.num 2 1) (.pow (.var 0) 2)) (.sqrt (.div (.mul (.add (.num 1 1) (.var 0)) (.add (.num 1 1) (.var 1))) (.mul (.add (.neg (.var 0)) (.mul (.num 4 1) (.pow (.var 0) 3))) (.add (.num 1 1) (.mul (.num 2 1) (.var 1)))))))) (.mul (.mul (.num 2 1) (.var 1)) (.add (.sub (.sub (.sqrt (.div (.mul (.mul (.var 0) (.add (.num 1 1) (.var 0))) (.add (.num 1 1) (.var 1))) (.mul (.add (.neg (.num 1 1)) (.mul (.num 4 1) (.pow (.var 0) 2))) (.add (.num 1 1) (.mul (.num 2 1) (.var 1)))))) (.mul (.num 2 1) (.sqrt (.div (.mul (.mul (.pow (.var 0) 3) (.add (.num 1 1) (.var 0))) (.add (.num 1 1) (.var 1))) (.mul (.add (.neg (.num 1 1)) (.mul (.num 4 1) (.pow (.var 0) 2))) (.add (.num 1 1) (.mul (.num 2 1) (.var 1)))))))) (.mul (.var 0) (.sqrt (.div (.mul (.add (.num 1 1) (.var 0)) (.add (.num 1 1) (.var 1))) (.mul (.add (.neg (.var 0)) (.mul (.num 4 1) (.pow (.var 0) 3))) (.add (.num 1 1) (.mul (.num 2 1) (.var 1)))))))) (.mul (.mul (.num 2 1) (.pow (.var 0) 2)) (.sqrt (.div (.mul (.add (.num 1 1) (.var 0)) (.add (.num 1 1) (.var 1))) (.mul (.add (.neg (.var 0)) (.mul (.num 4 1) (.pow (.var 0) 3))) (.add (.num 1 1) (.mul (.num 2 1) (.var 1))))))))))) (.mul (.add (.num 1 1) (.var 0)) (.pow (.add (.num 1 1) (.var 1)) 2)),
  .add (.add (.add (.div (.num 3 1) (.mul (.add (.num 1 1) (.var 1)) (.sqrt (.div (.mul (.mul (.mul (.var 0) (.add (.num 1 1) (.var 0))) (.add (.num 1 1) (.mul (.num 2 1) (.var 0)))) (.add (.num 2 1) (.var 1))) (.mul (.add (.neg (.num 1 1)) (.mul (.num 2 1) (.var 0))) (.var 1)))))) (.div (.mul (.mul (.num 3 1) (.var 0)) (.add (.neg (.num 1 1)) (.mul (.num 2 1) (.var 0)))) (.sqrt (.div (.mul (.mul (.mul (.mul (.var 0) (.add (.num 1 1) (.var 0))) (.add (.neg (.num 1 1)) (.mul (.num 4 1) (.pow (.var 0) 2)))) (.pow (.add (.num 1 1) (.var 1)) 2)) (.add (.num 2 1) (.var 1))) (.var 1))))) (.div (.mul (.add (.neg (.num 1 1)) (.var 1)) (.var 1)) (.sqrt (.div (.mul (.mul (.mul (.mul (.mul (.var 0) (.add (.num 1 1) (.var 0))) (.add (.num 1 1) (.mul (.num 2 1) (.var 0)))) (.var 1)) (.pow (.add (.num 1 1) (.var 1)) 2)) (.add (.num 2 1) (.var 1))) (.add (.neg (.num 1 1)) (.mul (.num 2 1) (.var 0))))))) (.div (.mul (.mul (.add (.neg (.num 1 1)) (.mul (.num 2 1) (.var 0))) (.add (.neg (.num 1 1)) (.var 1))) (.var 1)) (.sqrt (.div (.mul (.mul (.mul (.mul (.add (.num 1 1) (.var 0)) (.add (.neg (.num 1 1)) (.mul (.num 4 1) (.pow (.var 0) 2)))) (.var 1)) (.pow (.add (.num 1 1) (.var 1)) 2)) (.add (.num 2 1) (.var 1))) (.var 0)))),
  .neg (.div (.num 1 1) (.mul (.add (.num 1 1) (.var 1)) (.sqrt (.div (.mul (.mul (.add (.num 1 1) (.var 0)) (.add (.num 1 1) (.mul (.num 2 1) (.var 0)))) (.add (.num 1 1) (.mul (.num 2 1) (.var 1)))) (.add (.num 3 1) (.mul (.num 2 1) (.var 1))))))),
  .div (.num 1 1) (.mul (.mul (.sqrt (.div (.mul (.var 0) (.add (.num 1 1) (.mul (.num 2 1) (.var 0)))) (.add (.add (.neg (.num 1 1)) (.var 0)) (.mul (.num 2 1) (.pow (.var 0) 2))))) (.add (.num 1 1) (.var 1))) (.add (.num 1 1) (.mul (.num 2 1) (.var 1)))),
  .mul (.sqrt (.add (.add (.num 3 1) (.mul (.num 5 1) (.var 1))) (.mul (.num 2 1) (.pow (.var 1) 2)))) (.sub (.add (.sub (.add (.add (.mul (.mul (.neg (.num 3 1)) (.sub (.num 1 1) (.mul (.num 2 1) (.var 0)))) (.sqrt (.div (.mul (.var 0) (.pow (.var 1) 2)) (.mul (.mul (.mul (.mul (.add (.num 1 1) (.var 0)) (.add (.neg (.num 1 1)) (.mul (.num 4 1) (.pow (.var 0) 2)))) (.pow (.add (.num 1 1) (.var 1)) 3)) (.pow (.add (.num 2 1) (.var 1)) 2)) (.add (.num 3 1) (.mul (.num 2 1) (.var 1))))))) (.div (.add (.neg (.num 1 1)) (.var 1)) (.sqrt (.div (.mul (.mul (.mul (.mul (.mul (.var 0) (.add (.num 1 1) (.var 0))) (.add (.num 1 1) (.mul (.num 2 1) (.var 0)))) (.pow (.add (.num 1 1) (.var 1)) 3)) (.pow (.add (.num 2 1) (.var 1)) 2)) (.add (.num 3 1) (.mul (.num 2 1) (.var 1)))) (.mul (.add (.neg (.num 1 1)) (.mul (.num 2 1) (.var 0))) (.pow (.add (.num 1 1) (.mul (.num 2 1) (.var 1))) 2)))))) (.div (.mul (.add (.neg (.num 1 1)) (.mul (.num 2 1) (.var 0))) (.add (.neg (.num 1 1)) (.var 1))) (.sqrt (.div (.mul (.mul (.mul (.mul (.add (.num 1 1) (.var 0)) (.add (.neg (.num 1 1)) (.mul (.num 4 1) (.pow (.var 0) 2)))) (.pow (.add (.num 1 1) (.var 1)) 3)) (.pow (.add (.num 2 1) (.var 1)) 2)) (.add (.num 3 1) (.mul (.num 2 1) (.var 1)))) (.mul (.var 0) (.pow (.add (.num 1 1) (.mul (.num 2 1) (.var 1))) 2)))))) (.div (.mul (.add (.num 1 1) (.mul (.num 2 1) (.var 1))) (.sqrt (.div (.add (.neg (.num 1 1)) (.mul (.num 2 1) (.var 0))) (.mul (.add (.add (.var 0) (.mul (.num 3 1) (.pow (.var 0) 2))) (.mul (.num 2 1) (.pow (.var 0) 3))) (.add (.add (.num 3 1) (.mul (.num 5 1) (.var 1))) (.mul (.num 2 1) (.pow (.var 1) 2))))))) (.add (.num 2 1) (.var 1)))) (.div (.mul (.mul (.num 3 1) (.var 1)) (.sqrt (.div (.add (.neg (.num 1 1)) (.mul (.num 2 1) (.var 0))) (.mul (.add (.add (.var 0) (.mul (.num 3 1) (.pow (.var 0) 2))) (.mul (.num 2 1) (.pow (.var 0) 3))) (.add (.add (.num 3 1) (.mul (.num 5 1) (.var 1))) (.mul (.num 2 1) (.pow (.var 1) 2))))))) (.add (.add (.num 2 1) (.mul (.num 3 1) (.var 1))) (.pow (.var 1) 2)))) (.div (.mul (.mul (.var 0) (.add (.neg (.num 1 1)) (.mul (.num 2 1) (.var 0)))) (.add (.num 1 1) (.mul (.num 2 1) (.var 1)))) (.mul (.add (.num 2 1) (.var 1)) (.sqrt (.mul (.mul (.var 0) (.add (.add (.sub (.neg (.num 1 1)) (.var 0)) (.mul (.num 4 1) (.pow (.var 0) 2))) (.mul (.num 4 1) (.pow (.var 0) 3)))) (.add (.add (.num 3 1) (.mul (.num 5 1) (.var 1))) (.mul (.num 2 1) (.pow (.var 1) 2)))))))),
  .div (.num 1 1) (.sqrt (.div (.mul (.var 0) (.add (.num 1 1) (.mul (.num 2 1) (.var 0)))) (.add (.add (.neg (.num 1 1)) (.var 0)) (.mul (.num 2 1) (.pow (.var 0) 2))))),
  .div (.sub (.add (.mul (.mul (.num 2 1) (.pow (.var 1) 2)) (.sqrt (.div (.mul (.add (.num 1 1) (.var 0)) (.add (.num 1 1) (.var 1))) (.add (.num 1 1) (.mul (.num 2 1) (.var 1)))))) (.sqrt (.mul (.add (.num 1 1) (.var 0)) (.add (.add (.num 1 1) (.mul (.num 3 1) (.var 1))) (.mul (.num 2 1) (.pow (.var 1) 2)))))) (.mul (.var 1) (.add (.sqrt (.div (.mul (.add (.num 1 1) (.var 0)) (.add (.num 1 1) (.var 1))) (.add (.num 1 1) (.mul (.num 2 1) (.var 1))))) (.sqrt (.mul (.add (.num 1 1) (.var 0)) (.add (.add (.num 1 1) (.mul (.num 3 1) (.var 1))) (.mul (.num 2 1) (.pow (.var 1) 2)))))))) (.mul (.mul (.add (.num 1 1) (.var 0)) (.add (.num 1 1) (.var 1))) (.sqrt (.mul (.mul (.add (.num 1 1) (.mul (.num 2 1) (.var 0))) (.add (.num 1 1) (.var 1))) (.add (.num 1 1) (.mul (.num 2 1) (.var 1)))))),
  .neg (.div (.add (.add (.sub (.sub (.sqrt (.div (.mul (.add (.num 1 1) (.var 0)) (.add (.num 2 1) (.var 1))) (.add (.num 1 1) (.var 1)))) (.mul (.mul (.num 2 1) (.var 1)) (.sqrt (.div (.mul (.add (.num 1 1) (.var 0)) (.add (.num 2 1) (.var 1))) (.add (.num 1 1) (.var 1)))))) (.mul (.mul (.num 2 1) (.pow (.var 1) 2)) (.sqrt (.div (.mul (.add (.num 1 1) (.var 0)) (.add (.num 2 1) (.var 1))) (.add (.num 1 1) (.var 1)))))) (.sqrt (.mul (.add (.num 1 1) (.var 0)) (.add (.add (.num 2 1) (.mul (.num 3 1) (.var 1))) (.pow (.var 1) 2))))) (.mul (.mul (.num 2 1) (.var 1)) (.sqrt (.mul (.add (.num 1 1) (.var 0)) (.add (.add (.num 2 1) (.mul (.num 3 1) (.var 1))) (.pow (.var 1) 2)))))) (.mul (.mul (.add (.num 1 1) (.var 0)) (.add (.num 2 1) (.var 1))) (.sqrt (.mul (.mul (.add (.num 1 1) (.mul (.num 2 1) (.var 0))) (.add (.num 1 1) (.var 1))) (.add (.num 2 1) (.var 1)))))),
  .neg (.div (.mul (.pow (.var 0) 2) (.add (.num 3 1) (.mul (.num 2 1) (.var 0)))) (.mul (.add (.num 1 1) (.var 1)) (.sqrt (.div (.mul (.mul (.mul (.pow (.var 0) 3) (.add (.num 1 1) (.mul (.num 2 1) (.var 0)))) (.add (.add (.num 3 1) (.mul (.num 5 1) (.var 0))) (.mul (.num 2 1) (.pow (.var 0) 2)))) (.add (.num 1 1) (.mul (.num 2 1) (.var 1)))) (.add (.num 3 1) (.mul (.num 2 1) (.var 1))))))),
  .div (.mul (.add (.num 3 1) (.mul (.num 2 1) (.var 0))) (.add (.add (.mul (.num 2 1) (.sqrt (.mul (.var 0) (.var 1)))) (.sqrt (.mul (.var 0) (.pow (.var 1) 3)))) (.mul (.mul (.var 0) (.sqrt (.mul (.var 0) (.var 1)))) (.add (.num 2 1) (.var 1))))) (.mul (.mul (.add (.num 1 1) (.var 0)) (.add (.num 1 1) (.var 1))) (.sqrt (.mul (.mul (.add (.num 1 1) (.var 0)) (.add (.add (.num 3 1) (.mul (.num 8 1) (.var 0))) (.mul (.num 4 1) (.pow (.var 0) 2)))) (.add (.num 2 1) (.var 1))))),
  .div (.add (.num 3 1) (.mul (.num 2 1) (.var 0))) (.sqrt (.div (.mul (.mul (.add (.num 1 1) (.var 0)) (.add (.add (.num 3 1) (.mul (.num 8 1) (.var 0))) (.mul (.num 4 1) (.pow (.var 0) 2)))) (.pow (.add (.add (.num 1 1) (.mul (.num 3 1) (.var 1))) (.mul (.num 2 1) (.pow (.var 1) 2))) 2)) (.var 0))),
  .neg (.div (.mul (.add (.num 3 1) (.mul (.num 2 1) (.var 0))) (.sqrt (.div (.var 0) (.add (.add (.add (.num 3 1) (.mul (.num 11 1) (.var 0))) (.mul (.num 12 1) (.pow (.var 0) 2))) (.mul (.num 4 1) (.pow (.var 0) 3)))))) (.add (.num 1 1) (.var 1))),
  .div (.mul (.var 0) (.add (.num 3 1) (.mul (.num 2 1) (.var 0)))) (.sqrt (.mul (.mul (.var 0) (.add (.num 1 1) (.var 0))) (.add (.add (.num 3 1) (.mul (.num 8 1) (.var 0))) (.mul (.num 4 1) (.pow (.var 0) 2))))),
  .div (.num 1 1) (.sqrt (.add (.add (.num 1 1) (.mul (.num 3 1) (.var 0))) (.mul (.num 2 1) (.pow (.var 0) 2)))),
  .div (.add (.add (.div (.sqrt (.div (.mul (.var 0) (.add (.num 1 1) (.mul (.num 2 1) (.var 0)))) (.add (.num 3 1) (.mul (.num 2 1) (.var 0))))) (.add (.num 1 1) (.var 0))) (.mul (.var 0) (.sqrt (.div (.mul (.var 0) (.add (.num 1 1) (.mul (.num 2 1) (.var 0)))) (.mul (.pow (.add (.num 1 1) (.var 0)) 2) (.add (.num 3 1) (.mul (.num 2 1) (.var 0)))))))) (.mul (.num 2 1) (.sqrt (.div (.var 0) (.add (.add (.num 3 1) (.mul (.num 8 1) (.var 0))) (.mul (.num 4 1) (.pow (.var 0) 2))))))) (.sqrt (.add (.num 1 1) (.var 0))),
  .div (.add (.sqrt (.div (.mul (.var 0) (.add (.num 1 1) (.mul (.num 2 1) (.var 0)))) (.add (.num 3 1) (.mul (.num 2 1) (.var 0))))) (.mul (.num 2 1) (.sqrt (.div (.var 0) (.add (.add (.num 3 1) (.mul (.num 8 1) (.var 0))) (.mul (.num 4 1) (.pow (.var 0) 2))))))) (.sqrt (.add (.num 1 1) (.var 0))),
  .div (.add (.num 3 1) (.mul (.num 2 1) (.var 0))) (.sqrt (.div (.mul (.add (.num 1 1) (.var 0)) (.add (.add (.num 3 1) (.mul (.num 8 1) (.var 0))) (.mul (.num 4 1) (.pow (.var 0) 2)))) (.var 0))),
  .div (.mul (.var 1) (.add (.add (.add (.div (.mul (.mul (.mul (.mul (.num 3 1) (.var 0)) (.pow (.var 1) 2)) (.add (.num 1 1) (.var 1))) (.hpow (.add (.add (.num 6 1) (.mul (.num 7 1) (.var 1))) (.mul (.num 2 1) (.pow (.var 1) 2))) 1)) (.sqrt (.div (.add (.neg (.num 1 1)) (.mul (.num 2 1) (.var 0))) (.add (.num 1 1) (.mul (.num 2 1) (.var 1)))))) (.div (.mul (.mul (.mul (.mul (.num 6 1) (.var 0)) (.var 1)) (.add (.num 1 1) (.var 1))) (.hpow (.add (.add (.num 6 1) (.mul (.num 7 1) (.var 1))) (.mul (.num 2 1) (.pow (.var 1) 2))) 1)) (.sqrt (.mul (.add (.neg (.num 1 1)) (.mul (.num 2 1) (.var 0))) (.add (.num 1 1) (.mul (.num 2 1) (.var 1))))))) (.div (.mul (.mul (.mul (.mul (.num 9 1) (.var 0)) (.pow (.var 1) 2)) (.add (.num 1 1) (.var 1))) (.hpow (.add (.add (.num 6 1) (.mul (.num 7 1) (.var 1))) (.mul (.num 2 1) (.pow (.var 1) 2))) 1)) (.sqrt (.mul (.add (.neg (.num 1 1)) (.mul (.num 2 1) (.var 0))) (.add (.num 1 1) (.mul (.num 2 1) (.var 1))))))) (.sqrt (.div (.mul (.mul (.mul (.pow (.var 0) 2) (.add (.num 1 1) (.mul (.num 2 1) (.var 1)))) (.pow (.add (.var 1) (.pow (.var 1) 2)) 4)) (.pow (.add (.add (.num 6 1) (.mul (.num 7 1) (.var 1))) (.mul (.num 2 1) (.pow (.var 1) 2))) 3)) (.add (.neg (.num 1 1)) (.mul (.num 2 1) (.var 0))))))) (.sqrt (.div (.mul (.mul (.mul (.pow (.var 0) 3) (.add (.num 1 1) (.mul (.num 2 1) (.var 0)))) (.pow (.add (.var 1) (.pow (.var 1) 2)) 4)) (.pow (.add (.add (.num 6 1) (.mul (.num 7 1) (.var 1))) (.mul (.num 2 1) (.pow (.var 1) 2))) 5)) (.mul (.mul (.add (.num 1 1) (.var 0)) (.pow (.add (.neg (.num 1 1)) (.mul (.num 2 1) (.var 0))) 2)) (.add (.num 1 1) (.mul (.num 2 1) (.var 1)))))),
  .mul (.sqrt (.div (.add (.num 1 1) (.var 0)) (.mul (.add (.num 1 1) (.mul (.num 2 1) (.var 0))) (.add (.add (.add (.add (.num 30 1) (.mul (.num 77 1) (.var 1))) (.mul (.num 71 1) (.pow (.var 1) 2))) (.mul (.num 28 1) (.pow (.var 1) 3))) (.mul (.num 4 1) (.pow (.var 1) 4)))))) (.add (.add (.add (.add (.mul (.mul (.num 2 1) (.add (.num 1 1) (.mul (.num 2 1) (.var 1)))) (.sqrt (.div (.mul (.add (.neg (.num 1 1)) (.mul (.num 2 1) (.var 0))) (.add (.add (.num 3 1) (.mul (.num 5 1) (.var 1))) (.mul (.num 2 1) (.pow (.var 1) 2)))) (.mul (.var 0) (.add (.add (.num 10 1) (.mul (.num 9 1) (.var 1))) (.mul (.num 2 1) (.pow (.var 1) 2))))))) (.mul (.add (.num 1 1) (.mul (.num 2 1) (.var 1))) (.sqrt (.div (.mul (.add (.neg (.num 1 1)) (.mul (.num 2 1) (.var 0))) (.add (.add (.add (.num 6 1) (.mul (.num 13 1) (.var 1))) (.mul (.num 9 1) (.pow (.var 1) 2))) (.mul (.num 2 1) (.pow (.var 1) 3)))) (.mul (.var 0) (.add (.num 5 1) (.mul (.num 2 1) (.var 1)))))))) (.mul (.mul (.num 6 1) (.add (.num 1 1) (.mul (.num 2 1) (.var 1)))) (.sqrt (.div (.mul (.add (.neg (.num 1 1)) (.mul (.num 2 1) (.var 0))) (.add (.num 1 1) (.var 1))) (.mul (.var 0) (.add (.add (.add (.num 30 1) (.mul (.num 47 1) (.var 1))) (.mul (.num 24 1) (.pow (.var 1) 2))) (.mul (.num 4 1) (.pow (.var 1) 3)))))))) (.mul (.num 6 1) (.sqrt (.div (.add (.neg (.num 1 1)) (.mul (.num 2 1) (.var 0))) (.mul (.var 0) (.add (.add (.add (.add (.num 30 1) (.mul (.num 77 1) (.var 1))) (.mul (.num 71 1) (.pow (.var 1) 2))) (.mul (.num 28 1) (.pow (.var 1) 3))) (.mul (.num 4 1) (.pow (.var 1) 4)))))))) (.mul (.mul (.num 6 1) (.add (.num 1 1) (.mul (.num 2 1) (.var 1)))) (.sqrt (.div (.add (.neg (.num 1 1)) (.mul (.num 2 1) (.var 0))) (.mul (.var 0) (.add (.add (.add (.add (.num 30 1) (.mul (.num 77 1) (.var 1))) (.mul (.num 71 1) (.pow (.var 1) 2))) (.mul (.num 28 1) (.pow (.var 1) 3))) (.mul (.num 4 1) (.pow (.var 1) 4)))))))),
  .div (.add (.add (.add (.add (.mul (.num 6 1) (.add (.add (.sqrt (.div (.mul (.var 0) (.add (.num 1 1) (.mul (.num 2 1) (.var 0)))) (.add (.num 3 1) (.mul (.num 2 1) (.var 0))))) (.sqrt (.div (.mul (.pow (.var 0) 3) (.add (.num 1 1) (.mul (.num 2 1) (.var 0)))) (.add (.num 3 1) (.mul (.num 2 1) (.var 0)))))) (.mul (.num 2 1) (.sqrt (.div (.var 0) (.add (.add (.num 3 1) (.mul (.num 8 1) (.var 0))) (.mul (.num 4 1) (.pow (.var 0) 2)))))))) (.mul (.mul (.num 13 1) (.add (.sqrt (.div (.mul (.var 0) (.add (.num 1 1) (.mul (.num 2 1) (.var 0)))) (.add (.num 3 1) (.mul (.num 2 1) (.var 0))))) (.mul (.num 2 1) (.sqrt (.div (.var 0) (.add (.add (.num 3 1) (.mul (.num 8 1) (.var 0))) (.mul (.num 4 1) (.pow (.var 0) 2)))))))) (.var 1))) (.mul (.mul (.num 9 1) (.add (.sqrt (.div (.mul (.var 0) (.add (.num 1 1) (.mul (.num 2 1) (.var 0)))) (.add (.num 3 1) (.mul (.num 2 1) (.var 0))))) (.mul (.num 2 1) (.sqrt (.div (.var 0) (.add (.add (.num 3 1) (.mul (.num 8 1) (.var 0))) (.mul (.num 4 1) (.pow (.var 0) 2)))))))) (.pow (.var 1) 2))) (.mul (.mul (.num 2 1) (.add (.sqrt (.div (.mul (.var 0) (.add (.num 1 1) (.mul (.num 2 1) (.var 0)))) (.add (.num 3 1) (.mul (.num 2 1) (.var 0))))) (.mul (.num 2 1) (.sqrt (.div (.var 0) (.add (.add (.num 3 1) (.mul (.num 8 1) (.var 0))) (.mul (.num 4 1) (.pow (.var 0) 2)))))))) (.pow (.var 1) 3))) (.mul (.var 0) (.add (.add (.add (.mul (.num 12 1) (.sqrt (.div (.var 0) (.add (.add (.num 3 1) (.mul (.num 8 1) (.var 0))) (.mul (.num 4 1) (.pow (.var 0) 2)))))) (.mul (.mul (.num 13 1) (.add (.sqrt (.div (.mul (.var 0) (.add (.num 1 1) (.mul (.num 2 1) (.var 0)))) (.add (.num 3 1) (.mul (.num 2 1) (.var 0))))) (.mul (.num 2 1) (.sqrt (.div (.var 0) (.add (.add (.num 3 1) (.mul (.num 8 1) (.var 0))) (.mul (.num 4 1) (.pow (.var 0) 2)))))))) (.var 1))) (.mul (.mul (.num 9 1) (.add (.sqrt (.div (.mul (.var 0) (.add (.num 1 1) (.mul (.num 2 1) (.var 0)))) (.add (.num 3 1) (.mul (.num 2 1) (.var 0))))) (.mul (.num 2 1) (.sqrt (.div (.var 0) (.add (.add (.num 3 1) (.mul (.num 8 1) (.var 0))) (.mul (.num 4 1) (.pow (.var 0) 2)))))))) (.pow (.var 1) 2))) (.mul (.mul (.num 2 1) (.add (.sqrt (.div (.mul (.var 0) (.add (.num 1 1) (.mul (.num 2 1) (.var 0)))) (.add (.num 3 1) (.mul (.num 2 1) (.var 0))))) (.mul (.num 2 1) (.sqrt (.div (.var 0) (.add (.add (.num 3 1) (.mul (.num 8 1) (.var 0))) (.mul (.num 4 1) (.pow (.var 0) 2)))))))) (.pow (.var 1) 3))))) (.mul (.mul (.hpow (.add (.num 1 1) (.var 0)) 1) (.add (.num 1 1) (.var 1))) (.add (.add (.num 6 1) (.mul (.num 7 1) (.var 1))) (.mul (.num 2 1) (.pow (.var 1) 2)))),
  .div (.sub (.mul (.add (.neg (.num 1 1)) (.mul (.num 2 1) (.var 0))) (.sqrt (.div (.mul (.var 0) (.add (.num 1 1) (.var 0))) (.add (.num 1 1) (.mul (.num 2 1) (.var 0)))))) (.sqrt (.mul (.var 0) (.add (.add (.num 1 1) (.mul (.num 3 1) (.var 0))) (.mul (.num 2 1) (.pow (.var 0) 2)))))) (.mul (.mul (.num 2 1) (.var 0)) (.sqrt (.add (.num 1 1) (.var 0)))),
  .div (.sqrt (.add (.neg (.num 1 1)) (.pow (.var 0) 2))) (.var 0),
  .div (.sqrt (.div (.add (.neg (.num 1 1)) (.mul (.num 2 1) (.var 0))) (.add (.num 1 1) (.mul (.num 2 1) (.var 0))))) (.var 0),
  .div (.add (.add (.sqrt (.div (.mul (.mul (.add (.neg (.num 1 1)) (.var 0)) (.add (.num 1 1) (.var 1))) (.pow (.add (.num 1 1) (.mul (.num 2 1) (.var 1))) 2)) (.mul (.var 0) (.add (.num 3 1) (.mul (.num 2 1) (.var 1)))))) (.sqrt (.div (.add (.neg (.num 1 1)) (.var 0)) (.mul (.var 0) (.add (.add (.num 3 1) (.mul (.num 5 1) (.var 1))) (.mul (.num 2 1) (.pow (.var 1) 2))))))) (.sqrt (.div (.mul (.add (.neg (.num 1 1)) (.var 0)) (.pow (.add (.num 1 1) (.mul (.num 2 1) (.var 1))) 2)) (.mul (.var 0) (.add (.add (.num 3 1) (.mul (.num 5 1) (.var 1))) (.mul (.num 2 1) (.pow (.var 1) 2))))))) (.sqrt (.div (.mul (.var 0) (.add (.add (.num 3 1) (.mul (.num 5 1) (.var 1))) (.mul (.num 2 1) (.pow (.var 1) 2)))) (.add (.num 1 1) (.var 0)))),
  .div (.add (.add (.sqrt (.div (.mul (.mul (.add (.neg (.num 1 1)) (.mul (.num 2 1) (.var 0))) (.add (.num 1 1) (.var 1))) (.pow (.add (.num 1 1) (.mul (.num 2 1) (.var 1))) 2)) (.mul (.add (.var 0) (.pow (.var 0) 2)) (.add (.num 3 1) (.mul (.num 2 1) (.var 1)))))) (.sqrt (.div (.add (.neg (.num 1 1)) (.mul (.num 2 1) (.var 0))) (.mul (.mul (.var 0) (.add (.num 1 1) (.var 0))) (.add (.add (.num 3 1) (.mul (.num 5 1) (.var 1))) (.mul (.num 2 1) (.pow (.var 1) 2))))))) (.sqrt (.div (.mul (.add (.neg (.num 1 1)) (.mul (.num 2 1) (.var 0))) (.pow (.add (.num 1 1) (.mul (.num 2 1) (.var 1))) 2)) (.mul (.mul (.var 0) (.add (.num 1 1) (.var 0))) (.add (.add (.num 3 1) (.mul (.num 5 1) (.var 1))) (.mul (.num 2 1) (.pow (.var 1) 2))))))) (.sqrt (.div (.mul (.mul (.var 0) (.add (.num 1 1) (.mul (.num 2 1) (.var 0)))) (.add (.add (.num 3 1) (.mul (.num 5 1) (.var 1))) (.mul (.num 2 1) (.pow (.var 1) 2)))) (.add (.num 1 1) (.var 0)))),
  .neg (.div (.num 1 1) (.var 0)),
  .div (.add (.add (.neg (.num 1 1)) (.var 0)) (.pow (.var 0) 2)) (.mul (.var 0) (.add (.num 1 1) (.var 0))),
  .div (.num 1 1) (.add (.num 1 1) (.var 0)),
  .div (.sub (.neg (.num 3 1)) (.mul (.num 2 1) (.var 0))) (.mul (.add (.num 1 1) (.var 0)) (.sqrt (.add (.add (.num 3 1) (.mul (.num 8 1) (.var 0))) (.mul (.num 4 1) (.pow (.var 0) 2))))),
  .mul (.sqrt (.add (.num 1 1) (.var 0))) (.add (.add (.mul (.num 2 1) (.sqrt (.div (.mul (.var 0) (.pow (.add (.num 1 1) (.mul (.num 2 1) (.var 0))) 2)) (.mul (.mul (.pow (.add (.num 1 1) (.var 0)) 3) (.add (.num 2 1) (.var 0))) (.pow (.add (.num 3 1) (.mul (.num 2 1) (.var 0))) 2))))) (.div (.mul (.add (.num 1 1) (.mul (.num 2 1) (.var 0))) (.sqrt (.div (.var 0) (.add (.add (.num 2 1) (.mul (.num 3 1) (.var 0))) (.pow (.var 0) 2))))) (.add (.num 3 1) (.mul (.num 2 1) (.var 0))))) (.div (.mul (.num 3 1) (.sqrt (.div (.var 0) (.add (.add (.num 2 1) (.mul (.num 3 1) (.var 0))) (.pow (.var 0) 2))))) (.add (.add (.num 3 1) (.mul (.num 5 1) (.var 0))) (.mul (.num 2 1) (.pow (.var 0) 2))))),
  .neg (.div (.add (.add (.add (.add (.add (.add (.add (.add (.mul (.mul (.num 4 1) (.hpow (.var 0) 2)) (.hpow (.var 1) 1)) (.mul (.mul (.num 5 1) (.hpow (.var 0) 1)) (.hpow (.var 1) 2))) (.mul (.num 3 1) (.sqrt (.mul (.var 0) (.var 1))))) (.mul (.num 10 1) (.hpow (.mul (.var 0) (.var 1)) 1))) (.mul (.num 2 1) (.hpow (.mul (.var 0) (.var 1)) 2))) (.mul (.num 5 1) (.sqrt (.mul (.pow (.var 0) 3) (.var 1))))) (.mul (.num 2 1) (.sqrt (.mul (.pow (.var 0) 5) (.var 1))))) (.mul (.num 6 1) (.sqrt (.mul (.var 0) (.pow (.var 1) 3))))) (.mul (.num 3 1) (.sqrt (.mul (.var 0) (.pow (.var 1) 5))))) (.mul (.mul (.hpow (.add (.num 1 1) (.var 0)) 1) (.sqrt (.mul (.mul (.mul (.var 0) (.add (.num 3 1) (.mul (.num 2 1) (.var 0)))) (.add (.add (.num 1 1) (.mul (.num 3 1) (.var 0))) (.mul (.num 2 1) (.pow (.var 0) 2)))) (.var 1)))) (.pow (.add (.num 1 1) (.var 1)) 2))),
  .div (.sqrt (.mul (.var 0) (.add (.num 2 1) (.var 0)))) (.add (.num 1 1) (.var 0)),
  .sqrt (.div (.sub (.add (.num 3 1) (.var 0)) (.mul (.num 2 1) (.pow (.var 0) 2))) (.sub (.var 0) (.mul (.num 2 1) (.pow (.var 0) 2)))),
  .div (.mul (.sqrt (.num 3 1)) (.sqrt (.div (.add (.neg (.num 1 1)) (.var 0)) (.add (.neg (.num 1 1)) (.mul (.num 2 1) (.var 0)))))) (.var 0),
  .neg (.div (.sqrt (.num 3 1)) (.sqrt (.mul (.var 0) (.add (.neg (.num 1 1)) (.mul (.num 2 1) (.var 0)))))),
  .div (.add (.add (.neg (.num 4 1)) (.var 0)) (.mul (.num 2 1) (.pow (.var 0) 2))) (.sqrt (.mul (.mul (.var 0) (.add (.num 1 1) (.var 0))) (.add (.neg (.num 1 1)) (.mul (.num 4 1) (.pow (.var 0) 2))))),
  .div (.add (.add (.sub (.mul (.num 3 1) (.sqrt (.div (.mul (.mul (.var 0) (.add (.num 1 1) (.var 0))) (.add (.num 3 1) (.mul (.num 2 1) (.var 0)))) (.add (.neg (.num 1 1)) (.mul (.num 4 1) (.pow (.var 0) 2)))))) (.mul (.mul (.num 10 1) (.var 0)) (.sqrt (.div (.mul (.mul (.var 0) (.add (.num 1 1) (.var 0))) (.add (.num 3 1) (.mul (.num 2 1) (.var 0)))) (.add (.neg (.num 1 1)) (.mul (.num 4 1) (.pow (.var 0) 2))))))) (.mul (.mul (.num 8 1) (.pow (.var 0) 2)) (.sqrt (.div (.mul (.mul (.var 0) (.add (.num 1 1) (.var 0))) (.add (.num 3 1) (.mul (.num 2 1) (.var 0)))) (.add (.neg (.num 1 1)) (.mul (.num 4 1) (.pow (.var 0) 2))))))) (.mul (.mul (.num 9 1) (.add (.num 1 1) (.var 0))) (.sqrt (.div (.mul (.var 0) (.add (.add (.neg (.num 3 1)) (.mul (.num 4 1) (.var 0))) (.mul (.num 4 1) (.pow (.var 0) 2)))) (.add (.add (.num 1 1) (.mul (.num 3 1) (.var 0))) (.mul (.num 2 1) (.pow (.var 0) 2))))))) (.mul (.mul (.mul (.num 2 1) (.var 0)) (.hpow (.add (.num 1 1) (.var 0)) 1)) (.add (.num 3 1) (.mul (.num 2 1) (.var 0)))),
  .div (.sub (.add (.add (.sub (.sub (.mul (.num 3 1) (.sqrt (.div (.mul (.var 0) (.add (.num 3 1) (.mul (.num 2 1) (.var 0)))) (.add (.num 1 1) (.mul (.num 2 1) (.var 0)))))) (.mul (.num 5 1) (.sqrt (.div (.mul (.pow (.var 0) 3) (.add (.num 3 1) (.mul (.num 2 1) (.var 0)))) (.add (.num 1 1) (.mul (.num 2 1) (.var 0))))))) (.mul (.num 4 1) (.sqrt (.div (.mul (.pow (.var 0) 5) (.add (.num 3 1) (.mul (.num 2 1) (.var 0)))) (.add (.num 1 1) (.mul (.num 2 1) (.var 0))))))) (.mul (.num 4 1) (.sqrt (.div (.mul (.pow (.var 0) 7) (.add (.num 3 1) (.mul (.num 2 1) (.var 0)))) (.add (.num 1 1) (.mul (.num 2 1) (.var 0))))))) (.sqrt (.mul (.pow (.var 0) 3) (.add (.add (.num 3 1) (.mul (.num 8 1) (.var 0))) (.mul (.num 4 1) (.pow (.var 0) 2)))))) (.mul (.num 2 1) (.sqrt (.mul (.pow (.var 0) 5) (.add (.add (.num 3 1) (.mul (.num 8 1) (.var 0))) (.mul (.num 4 1) (.pow (.var 0) 2))))))) (.mul (.mul (.var 0) (.add (.num 3 1) (.mul (.num 2 1) (.var 0)))) (.sqrt (.mul (.var 0) (.add (.add (.neg (.num 1 1)) (.var 0)) (.mul (.num 2 1) (.pow (.var 0) 2)))))),
  .div (.add (.add (.mul (.neg (.num 9 1)) (.sqrt (.div (.add (.add (.neg (.num 3 1)) (.mul (.num 4 1) (.var 0))) (.mul (.num 4 1) (.pow (.var 0) 2))) (.add (.num 1 1) (.mul (.num 2 1) (.var 0)))))) (.mul (.var 0) (.sub (.mul (.num 6 1) (.sqrt (.div (.add (.add (.neg (.num 3 1)) (.mul (.num 4 1) (.var 0))) (.mul (.num 4 1) (.pow (.var 0) 2))) (.add (.num 1 1) (.mul (.num 2 1) (.var 0)))))) (.mul (.num 3 1) (.sqrt (.add (.add (.sub (.neg (.num 3 1)) (.mul (.num 2 1) (.var 0))) (.mul (.num 12 1) (.pow (.var 0) 2))) (.mul (.num 8 1) (.pow (.var 0) 3)))))))) (.mul (.mul (.num 2 1) (.pow (.var 0) 2)) (.add (.mul (.num 8 1) (.sqrt (.div (.add (.add (.neg (.num 3 1)) (.mul (.num 4 1) (.var 0))) (.mul (.num 4 1) (.pow (.var 0) 2))) (.add (.num 1 1) (.mul (.num 2 1) (.var 0)))))) (.sqrt (.add (.add (.sub (.neg (.num 3 1)) (.mul (.num 2 1) (.var 0))) (.mul (.num 12 1) (.pow (.var 0) 2))) (.mul (.num 8 1) (.pow (.var 0) 3))))))) (.mul (.pow (.add (.num 3 1) (.mul (.num 2 1) (.var 0))) 2) (.sqrt (.mul (.var 0) (.add (.add (.neg (.num 1 1)) (.var 0)) (.mul (.num 2 1) (.pow (.var 0) 2)))))),
  .div (.sqrt (.num 3 1)) (.sqrt (.mul (.add (.num 1 1) (.var 0)) (.add (.num 3 1) (.mul (.num 2 1) (.var 0))))),
  .div (.mul (.neg (.num 1 2)) (.mul (.mul (.sqrt (.num 3 1)) (.sqrt (.div (.add (.add (.neg (.num 1 1)) (.var 0)) (.mul (.num 2 1) (.pow (.var 0) 2))) (.add (.num 2 1) (.var 0))))) (.sub (.add (.add (.mul (.num 9 1) (.sqrt (.div (.add (.add (.num 3 1) (.mul (.num 5 1) (.var 0))) (.mul (.num 2 1) (.pow (.var 0) 2))) (.add (.neg (.num 1 1)) (.mul (.num 2 1) (.var 0)))))) (.mul (.mul (.num 20 1) (.var 0)) (.sqrt (.div (.add (.add (.num 3 1) (.mul (.num 5 1) (.var 0))) (.mul (.num 2 1) (.pow (.var 0) 2))) (.add (.neg (.num 1 1)) (.mul (.num 2 1) (.var 0))))))) (.mul (.mul (.num 4 1) (.pow (.var 0) 2)) (.sqrt (.div (.add (.add (.num 3 1) (.mul (.num 5 1) (.var 0))) (.mul (.num 2 1) (.pow (.var 0) 2))) (.add (.neg (.num 1 1)) (.mul (.num 2 1) (.var 0))))))) (.mul (.num 3 1) (.sqrt (.add (.add (.add (.neg (.num 3 1)) (.var 0)) (.mul (.num 8 1) (.pow (.var 0) 2))) (.mul (.num 4 1) (.pow (.var 0) 3)))))))) (.pow (.add (.add (.num 3 1) (.mul (.num 5 1) (.var 0))) (.mul (.num 2 1) (.pow (.var 0) 2))) 2),
  .mul (.sqrt (.add (.num 1 1) (.var 0))) (.add (.add (.add (.mul (.num 9 1) (.sqrt (.div (.mul (.var 0) (.pow (.add (.num 1 1) (.mul (.num 2 1) (.var 0))) 2)) (.mul (.mul (.pow (.add (.num 3 1) (.mul (.num 2 1) (.var 0))) 3) (.add (.num 5 1) (.mul (.num 2 1) (.var 0)))) (.pow (.add (.add (.num 2 1) (.mul (.num 3 1) (.var 0))) (.pow (.var 0) 2)) 2))))) (.div (.mul (.add (.num 1 1) (.mul (.num 2 1) (.var 0))) (.sqrt (.div (.var 0) (.add (.add (.num 15 1) (.mul (.num 16 1) (.var 0))) (.mul (.num 4 1) (.pow (.var 0) 2)))))) (.add (.num 2 1) (.var 0)))) (.div (.mul (.mul (.num 6 1) (.add (.num 1 1) (.mul (.num 2 1) (.var 0)))) (.sqrt (.div (.var 0) (.add (.add (.num 15 1) (.mul (.num 16 1) (.var 0))) (.mul (.num 4 1) (.pow (.var 0) 2)))))) (.add (.add (.num 6 1) (.mul (.num 7 1) (.var 0))) (.mul (.num 2 1) (.pow (.var 0) 2))))) (.div (.mul (.num 12 1) (.sqrt (.div (.var 0) (.add (.add (.num 15 1) (.mul (.num 16 1) (.var 0))) (.mul (.num 4 1) (.pow (.var 0) 2)))))) (.add (.add (.add (.num 6 1) (.mul (.num 13 1) (.var 0))) (.mul (.num 9 1) (.pow (.var 0) 2))) (.mul (.num 2 1) (.pow (.var 0) 3))))),
  .div (.sqrt (.div (.mul (.var 0) (.add (.add (.num 3 1) (.mul (.num 5 1) (.var 0))) (.mul (.num 2 1) (.pow (.var 0) 2)))) (.add (.num 1 1) (.mul (.num 2 1) (.var 0))))) (.add (.num 1 1) (.var 0)),
  .div (.add (.add (.sqrt (.div (.mul (.mul (.var 0) (.add (.num 1 1) (.var 1))) (.pow (.add (.num 1 1) (.mul (.num 2 1) (.var 1))) 2)) (.mul (.add (.num 1 1) (.var 0)) (.add (.num 3 1) (.mul (.num 2 1) (.var 1)))))) (.sqrt (.div (.var 0) (.mul (.add (.num 1 1) (.var 0)) (.add (.add (.num 3 1) (.mul (.num 5 1) (.var 1))) (.mul (.num 2 1) (.pow (.var 1) 2))))))) (.sqrt (.div (.mul (.var 0) (.pow (.add (.num 1 1) (.mul (.num 2 1) (.var 1))) 2)) (.mul (.add (.num 1 1) (.var 0)) (.add (.add (.num 3 1) (.mul (.num 5 1) (.var 1))) (.mul (.num 2 1) (.pow (.var 1) 2))))))) (.sqrt (.div (.mul (.add (.num 1 1) (.mul (.num 2 1) (.var 0))) (.add (.add (.num 3 1) (.mul (.num 5 1) (.var 1))) (.mul (.num 2 1) (.pow (.var 1) 2)))) (.add (.num 3 1) (.mul (.num 2 1) (.var 0))))),
  .div (.add (.sub (.add (.sqrt (.div (.var 0) (.mul (.add (.num 1 1) (.var 0)) (.add (.neg (.num 1 1)) (.var 1))))) (.mul (.num 2 1) (.sqrt (.div (.mul (.var 0) (.add (.neg (.num 1 1)) (.var 1))) (.add (.num 1 1) (.var 0)))))) (.mul (.mul (.num 2 1) (.sqrt (.div (.var 0) (.mul (.add (.num 1 1) (.var 0)) (.add (.neg (.num 1 1)) (.var 1)))))) (.var 1))) (.mul (.sqrt (.div (.var 0) (.mul (.add (.num 1 1) (.var 0)) (.add (.neg (.num 1 1)) (.var 1))))) (.pow (.var 1) 2))) (.mul (.sqrt (.div (.mul (.add (.num 1 1) (.mul (.num 2 1) (.var 0))) (.add (.neg (.num 1 1)) (.var 1))) (.add (.num 3 1) (.mul (.num 2 1) (.var 0))))) (.add (.num 1 1) (.var 1))),
  .div (.add (.sub (.add (.add (.mul (.neg (.num 3 1)) (.sqrt (.mul (.mul (.var 0) (.var 1)) (.add (.add (.num 3 1) (.mul (.num 5 1) (.var 1))) (.mul (.num 2 1) (.pow (.var 1) 2)))))) (.mul (.mul (.num 12 1) (.pow (.var 1) 2)) (.sqrt (.mul (.mul (.var 0) (.var 1)) (.add (.add (.num 3 1) (.mul (.num 5 1) (.var 1))) (.mul (.num 2 1) (.pow (.var 1) 2))))))) (.sqrt (.mul (.mul (.var 0) (.pow (.var 1) 3)) (.add (.add (.num 3 1) (.mul (.num 5 1) (.var 1))) (.mul (.num 2 1) (.pow (.var 1) 2)))))) (.mul (.num 4 1) (.sqrt (.mul (.mul (.var 0) (.pow (.var 1) 5)) (.add (.add (.num 3 1) (.mul (.num 5 1) (.var 1))) (.mul (.num 2 1) (.pow (.var 1) 2))))))) (.mul (.num 4 1) (.sqrt (.mul (.mul (.var 0) (.pow (.var 1) 7)) (.add (.add (.num 3 1) (.mul (.num 5 1) (.var 1))) (.mul (.num 2 1) (.pow (.var 1) 2))))))) (.mul (.mul (.sqrt (.div (.mul (.mul (.add (.num 1 1) (.var 0)) (.add (.num 1 1) (.mul (.num 2 1) (.var 0)))) (.var 1)) (.add (.num 3 1) (.mul (.num 2 1) (.var 0))))) (.add (.neg (.num 1 1)) (.mul (.num 2 1) (.var 1)))) (.hpow (.add (.add (.num 3 1) (.mul (.num 5 1) (.var 1))) (.mul (.num 2 1) (.pow (.var 1) 2))) 1)),
  .div (.mul (.sqrt (.div (.add (.num 3 1) (.mul (.num 2 1) (.var 0))) (.add (.add (.num 1 1) (.mul (.num 3 1) (.var 0))) (.mul (.num 2 1) (.pow (.var 0) 2))))) (.add (.add (.add (.sqrt (.mul (.mul (.mul (.var 0) (.pow (.add (.num 1 1) (.var 1)) 3)) (.pow (.add (.var 1) (.mul (.num 2 1) (.pow (.var 1) 2))) 2)) (.add (.add (.num 6 1) (.mul (.num 7 1) (.var 1))) (.mul (.num 2 1) (.pow (.var 1) 2))))) (.mul (.num 6 1) (.sqrt (.mul (.var 0) (.add (.add (.add (.num 6 1) (.mul (.num 13 1) (.var 1))) (.mul (.num 9 1) (.pow (.var 1) 2))) (.mul (.num 2 1) (.pow (.var 1) 3))))))) (.mul (.mul (.num 12 1) (.var 1)) (.sqrt (.mul (.var 0) (.add (.add (.add (.num 6 1) (.mul (.num 13 1) (.var 1))) (.mul (.num 9 1) (.pow (.var 1) 2))) (.mul (.num 2 1) (.pow (.var 1) 3))))))) (.mul (.mul (.num 6 1) (.pow (.var 1) 2)) (.sqrt (.mul (.var 0) (.add (.add (.add (.num 6 1) (.mul (.num 13 1) (.var 1))) (.mul (.num 9 1) (.pow (.var 1) 2))) (.mul (.num 2 1) (.pow (.var 1) 3)))))))) (.hpow (.add (.add (.add (.num 6 1) (.mul (.num 13 1) (.var 1))) (.mul (.num 9 1) (.pow (.var 1) 2))) (.mul (.num 2 1) (.pow (.var 1) 3))) 1),
  .mul (.sqrt (.div (.add (.num 3 1) (.mul (.num 2 1) (.var 0))) (.mul (.add (.num 1 1) (.mul (.num 2 1) (.var 0))) (.add (.add (.add (.add (.num 30 1) (.mul (.num 77 1) (.var 1))) (.mul (.num 71 1) (.pow (.var 1) 2))) (.mul (.num 28 1) (.pow (.var 1) 3))) (.mul (.num 4 1) (.pow (.var 1) 4)))))) (.add (.add (.add (.add (.mul (.mul (.num 2 1) (.add (.num 1 1) (.mul (.num 2 1) (.var 1)))) (.sqrt (.div (.mul (.var 0) (.add (.add (.num 3 1) (.mul (.num 5 1) (.var 1))) (.mul (.num 2 1) (.pow (.var 1) 2)))) (.mul (.add (.num 1 1) (.var 0)) (.add (.add (.num 10 1) (.mul (.num 9 1) (.var 1))) (.mul (.num 2 1) (.pow (.var 1) 2))))))) (.mul (.add (.num 1 1) (.mul (.num 2 1) (.var 1))) (.sqrt (.div (.mul (.var 0) (.add (.add (.add (.num 6 1) (.mul (.num 13 1) (.var 1))) (.mul (.num 9 1) (.pow (.var 1) 2))) (.mul (.num 2 1) (.pow (.var 1) 3)))) (.mul (.add (.num 1 1) (.var 0)) (.add (.num 5 1) (.mul (.num 2 1) (.var 1)))))))) (.mul (.mul (.num 6 1) (.add (.num 1 1) (.mul (.num 2 1) (.var 1)))) (.sqrt (.div (.mul (.var 0) (.add (.num 1 1) (.var 1))) (.mul (.add (.num 1 1) (.var 0)) (.add (.add (.add (.num 30 1) (.mul (.num 47 1) (.var 1))) (.mul (.num 24 1) (.pow (.var 1) 2))) (.mul (.num 4 1) (.pow (.var 1) 3)))))))) (.mul (.num 6 1) (.sqrt (.div (.var 0) (.mul (.add (.num 1 1) (.var 0)) (.add (.add (.add (.add (.num 30 1) (.mul (.num 77 1) (.var 1))) (.mul (.num 71 1) (.pow (.var 1) 2))) (.mul (.num 28 1) (.pow (.var 1) 3))) (.mul (.num 4 1) (.pow (.var 1) 4)))))))) (.mul (.mul (.num 6 1) (.add (.num 1 1) (.mul (.num 2 1) (.var 1)))) (.sqrt (.div (.var 0) (.mul (.add (.num 1 1) (.var 0)) (.add (.add (.add (.add (.num 30 1) (.mul (.num 77 1) (.var 1))) (.mul (.num 71 1) (.pow (.var 1) 2))) (.mul (.num 28 1) (.pow (.var 1) 3))) (.mul (.num 4 1) (.pow (.var 1) 4)))))))),
  .div (.mul (.mul (.mul (.add (.num 1 1) (.mul (.num 2 1) (.var 0))) (.sqrt (.div (.add (.add (.num 3 1) (.mul (.num 5 1) (.var 0))) (.mul (.num 2 1) (.pow (.var 0) 2))) (.var 1)))) (.hpow (.add (.num 1 1) (.mul (.num 2 1) (.var 1))) 1)) (.add (.sub (.sub (.sub (.mul (.neg (.num 6 1)) (.sqrt (.div (.var 1) (.mul (.add (.add (.num 3 1) (.mul (.num 8 1) (.var 0))) (.mul (.num 4 1) (.pow (.var 0) 2))) (.pow (.add (.num 1 1) (.mul (.num 2 1) (.var 1))) 3))))) (.mul (.num 9 1) (.sqrt (.div (.pow (.var 1) 3) (.mul (.add (.add (.num 3 1) (.mul (.num 8 1) (.var 0))) (.mul (.num 4 1) (.pow (.var 0) 2))) (.pow (.add (.num 1 1) (.mul (.num 2 1) (.var 1))) 3)))))) (.mul (.num 4 1) (.sqrt (.div (.pow (.var 1) 3) (.mul (.add (.add (.num 3 1) (.mul (.num 8 1) (.var 0))) (.mul (.num 4 1) (.pow (.var 0) 2))) (.add (.num 1 1) (.mul (.num 2 1) (.var 1)))))))) (.sqrt (.div (.pow (.var 1) 5) (.mul (.add (.add (.num 3 1) (.mul (.num 8 1) (.var 0))) (.mul (.num 4 1) (.pow (.var 0) 2))) (.add (.num 1 1) (.mul (.num 2 1) (.var 1))))))) (.mul (.mul (.num 2 1) (.var 0)) (.add (.add (.add (.mul (.num 6 1) (.sqrt (.div (.var 1) (.mul (.mul (.pow (.add (.num 1 1) (.mul (.num 2 1) (.var 0))) 3) (.add (.num 3 1) (.mul (.num 2 1) (.var 0)))) (.pow (.add (.num 1 1) (.mul (.num 2 1) (.var 1))) 3))))) (.mul (.num 9 1) (.sqrt (.div (.pow (.var 1) 3) (.mul (.mul (.pow (.add (.num 1 1) (.mul (.num 2 1) (.var 0))) 3) (.add (.num 3 1) (.mul (.num 2 1) (.var 0)))) (.pow (.add (.num 1 1) (.mul (.num 2 1) (.var 1))) 3)))))) (.mul (.num 4 1) (.sqrt (.div (.pow (.var 1) 3) (.mul (.mul (.pow (.add (.num 1 1) (.mul (.num 2 1) (.var 0))) 3) (.add (.num 3 1) (.mul (.num 2 1) (.var 0)))) (.add (.num 1 1) (.mul (.num 2 1) (.var 1)))))))) (.sqrt (.div (.pow (.var 1) 5) (.mul (.mul (.pow (.add (.num 1 1) (.mul (.num 2 1) (.var 0))) 3) (.add (.num 3 1) (.mul (.num 2 1) (.var 0)))) (.add (.num 1 1) (.mul (.num 2 1) (.var 1)))))))))) (.mul (.mul (.add (.num 1 1) (.var 0)) (.add (.num 1 1) (.var 1))) (.add (.add (.num 6 1) (.mul (.num 7 1) (.var 1))) (.mul (.num 2 1) (.pow (.var 1) 2)))),
  .div (.sqrt (.add (.add (.neg (.num 3 1)) (.mul (.num 4 1) (.var 0))) (.mul (.num 4 1) (.pow (.var 0) 2)))) (.add (.num 1 1) (.mul (.num 2 1) (.var 0))),
  .div (.add (.add (.sqrt (.div (.mul (.mul (.mul (.var 0) (.add (.neg (.num 1 1)) (.mul (.num 2 1) (.var 0)))) (.add (.num 1 1) (.var 1))) (.pow (.add (.num 1 1) (.mul (.num 2 1) (.var 1))) 2)) (.mul (.add (.add (.num 1 1) (.mul (.num 3 1) (.var 0))) (.mul (.num 2 1) (.pow (.var 0) 2))) (.add (.num 3 1) (.mul (.num 2 1) (.var 1)))))) (.sqrt (.div (.mul (.var 0) (.add (.neg (.num 1 1)) (.mul (.num 2 1) (.var 0)))) (.mul (.add (.add (.num 1 1) (.mul (.num 3 1) (.var 0))) (.mul (.num 2 1) (.pow (.var 0) 2))) (.add (.add (.num 3 1) (.mul (.num 5 1) (.var 1))) (.mul (.num 2 1) (.pow (.var 1) 2))))))) (.sqrt (.div (.mul (.mul (.var 0) (.add (.neg (.num 1 1)) (.mul (.num 2 1) (.var 0)))) (.pow (.add (.num 1 1) (.mul (.num 2 1) (.var 1))) 2)) (.mul (.add (.add (.num 1 1) (.mul (.num 3 1) (.var 0))) (.mul (.num 2 1) (.pow (.var 0) 2))) (.add (.add (.num 3 1) (.mul (.num 5 1) (.var 1))) (.mul (.num 2 1) (.pow (.var 1) 2))))))) (.sqrt (.div (.mul (.mul (.var 0) (.add (.num 1 1) (.mul (.num 2 1) (.var 0)))) (.add (.add (.num 3 1) (.mul (.num 5 1) (.var 1))) (.mul (.num 2 1) (.pow (.var 1) 2)))) (.add (.add (.num 3 1) (.mul (.num 5 1) (.var 0))) (.mul (.num 2 1) (.pow (.var 0) 2))))),
  .neg (.div (.sqrt (.div (.add (.num 3 1) (.mul (.num 2 1) (.var 0))) (.add (.num 1 1) (.mul (.num 2 1) (.var 0))))) (.add (.num 1 1) (.var 0))),
  .div (.add (.mul (.num 2 1) (.sqrt (.div (.var 0) (.add (.num 2 1) (.var 0))))) (.sqrt (.div (.pow (.var 0) 3) (.add (.num 2 1) (.var 0))))) (.add (.num 1 1) (.var 0)),
  .div (.num 1 1) (.add (.add (.num 1 1) (.mul (.num 3 1) (.var 0))) (.mul (.num 2 1) (.pow (.var 0) 2))),
  .neg (.div (.num 1 1) (.add (.num 1 1) (.var 0))),
  .div (.num 1 1) (.sqrt (.div (.mul (.var 0) (.add (.num 1 1) (.mul (.num 2 1) (.var 0)))) (.add (.add (.neg (.num 3 1)) (.var 0)) (.mul (.num 2 1) (.pow (.var 0) 2))))),
  .neg (.div (.sqrt (.add (.add (.num 9 1) (.mul (.num 15 1) (.var 0))) (.mul (.num 6 1) (.pow (.var 0) 2)))) (.mul (.add (.num 1 1) (.var 0)) (.add (.num 1 1) (.mul (.num 2 1) (.var 0))))),
  .div (.sqrt (.mul (.mul (.var 0) (.add (.num 3 1) (.mul (.num 2 1) (.var 0)))) (.add (.add (.neg (.num 2 1)) (.mul (.num 3 1) (.var 0))) (.mul (.num 2 1) (.pow (.var 0) 2))))) (.add (.add (.num 1 1) (.mul (.num 3 1) (.var 0))) (.mul (.num 2 1) (.pow (.var 0) 2))),
  .div (.sqrt (.num 3 1)) (.mul (.sqrt (.mul (.var 0) (.add (.num 1 1) (.var 0)))) (.add (.num 1 1) (.mul (.num 2 1) (.var 0)))),
  .div (.mul (.neg (.num 4 1)) (.sqrt (.mul (.mul (.var 0) (.add (.num 2 1) (.var 0))) (.add (.add (.num 3 1) (.mul (.num 5 1) (.var 0))) (.mul (.num 2 1) (.pow (.var 0) 2)))))) (.mul (.add (.num 1 1) (.var 0)) (.add (.add (.num 3 1) (.mul (.num 8 1) (.var 0))) (.mul (.num 4 1) (.pow (.var 0) 2)))),
  .div (.mul (.add (.num 5 1) (.mul (.num 2 1) (.var 0))) (.sqrt (.div (.mul (.var 0) (.add (.num 1 1) (.var 0))) (.add (.add (.num 15 1) (.mul (.num 16 1) (.var 0))) (.mul (.num 4 1) (.pow (.var 0) 2)))))) (.add (.num 1 1) (.var 0)),
  .div (.mul (.mul (.sqrt (.num 3 1)) (.sqrt (.mul (.var 0) (.add (.num 1 1) (.var 0))))) (.add (.sub (.add (.add (.sub (.sqrt (.div (.mul (.mul (.pow (.add (.num 2 1) (.var 0)) 2) (.add (.num 3 1) (.mul (.num 2 1) (.var 0)))) (.pow (.add (.add (.num 1 1) (.mul (.num 3 1) (.var 0))) (.mul (.num 2 1) (.pow (.var 0) 2))) 3)) (.var 0))) (.mul (.mul (.mul (.num 4 1) (.hpow (.add (.num 1 1) (.var 0)) 1)) (.sqrt (.div (.mul (.var 0) (.add (.num 1 1) (.mul (.num 2 1) (.var 0)))) (.add (.num 3 1) (.mul (.num 2 1) (.var 0)))))) (.add (.add (.num 2 1) (.mul (.num 5 1) (.var 0))) (.mul (.num 2 1) (.pow (.var 0) 2))))) (.div (.mul (.hpow (.add (.num 1 1) (.var 0)) 1) (.add (.add (.num 2 1) (.mul (.num 5 1) (.var 0))) (.mul (.num 2 1) (.pow (.var 0) 2)))) (.sqrt (.div (.mul (.var 0) (.add (.num 3 1) (.mul (.num 2 1) (.var 0)))) (.add (.num 1 1) (.mul (.num 2 1) (.var 0))))))) (.mul (.mul (.num 3 1) (.add (.add (.num 2 1) (.mul (.num 3 1) (.var 0))) (.pow (.var 0) 2))) (.sqrt (.div (.mul (.mul (.pow (.sub (.num 1 1) (.mul (.num 2 1) (.var 0))) 2) (.var 0)) (.add (.num 1 1) (.mul (.num 2 1) (.var 0)))) (.add (.add (.num 3 1) (.mul (.num 5 1) (.var 0))) (.mul (.num 2 1) (.pow (.var 0) 2))))))) (.mul (.mul (.num 5 1) (.sqrt (.div (.mul (.var 0) (.add (.num 1 1) (.mul (.num 2 1) (.var 0)))) (.add (.add (.num 3 1) (.mul (.num 5 1) (.var 0))) (.mul (.num 2 1) (.pow (.var 0) 2)))))) (.add (.add (.add (.num 2 1) (.mul (.num 7 1) (.var 0))) (.mul (.num 7 1) (.pow (.var 0) 2))) (.mul (.num 2 1) (.pow (.var 0) 3))))) (.mul (.mul (.mul (.num 2 1) (.var 0)) (.sqrt (.div (.mul (.var 0) (.add (.num 1 1) (.mul (.num 2 1) (.var 0)))) (.add (.add (.num 3 1) (.mul (.num 5 1) (.var 0))) (.mul (.num 2 1) (.pow (.var 0) 2)))))) (.add (.add (.add (.num 2 1) (.mul (.num 7 1) (.var 0))) (.mul (.num 7 1) (.pow (.var 0) 2))) (.mul (.num 2 1) (.pow (.var 0) 3)))))) (.mul (.mul (.num 2 1) (.add (.num 1 1) (.mul (.num 2 1) (.var 0)))) (.pow (.add (.add (.num 2 1) (.mul (.num 3 1) (.var 0))) (.pow (.var 0) 2)) 2)),
  .neg (.div (.mul (.mul (.sqrt (.num 3 1)) (.sqrt (.add (.num 1 1) (.var 0)))) (.add (.add (.add (.sub (.mul (.num 7 1) (.sqrt (.div (.add (.num 5 1) (.mul (.num 2 1) (.var 0))) (.add (.num 3 1) (.mul (.num 2 1) (.var 0)))))) (.mul (.mul (.num 4 1) (.pow (.var 0) 3)) (.sqrt (.div (.add (.num 5 1) (.mul (.num 2 1) (.var 0))) (.add (.num 3 1) (.mul (.num 2 1) (.var 0))))))) (.sqrt (.add (.add (.num 15 1) (.mul (.num 16 1) (.var 0))) (.mul (.num 4 1) (.pow (.var 0) 2))))) (.mul (.mul (.num 2 1) (.pow (.var 0) 2)) (.add (.mul (.neg (.num 5 1)) (.sqrt (.div (.add (.num 5 1) (.mul (.num 2 1) (.var 0))) (.add (.num 3 1) (.mul (.num 2 1) (.var 0)))))) (.sqrt (.add (.add (.num 15 1) (.mul (.num 16 1) (.var 0))) (.mul (.num 4 1) (.pow (.var 0) 2))))))) (.mul (.var 0) (.add (.mul (.neg (.num 2 1)) (.sqrt (.div (.add (.num 5 1) (.mul (.num 2 1) (.var 0))) (.add (.num 3 1) (.mul (.num 2 1) (.var 0)))))) (.mul (.num 3 1) (.sqrt (.add (.add (.num 15 1) (.mul (.num 16 1) (.var 0))) (.mul (.num 4 1) (.pow (.var 0) 2))))))))) (.mul (.hpow (.add (.num 5 1) (.mul (.num 2 1) (.var 0))) 1) (.add (.add (.num 2 1) (.mul (.num 3 1) (.var 0))) (.pow (.var 0) 2)))),
  .div (.mul (.sqrt (.mul (.add (.num 1 1) (.var 0)) (.add (.num 1 1) (.mul (.num 2 1) (.var 0))))) (.add (.add (.add (.mul (.num 15 1) (.sqrt (.div (.add (.num 2 1) (.var 0)) (.add (.add (.num 1 1) (.mul (.num 3 1) (.var 0))) (.mul (.num 2 1) (.pow (.var 0) 2)))))) (.mul (.num 9 1) (.sqrt (.div (.add (.add (.num 2 1) (.mul (.num 5 1) (.var 0))) (.mul (.num 2 1) (.pow (.var 0) 2))) (.add (.num 1 1) (.var 0)))))) (.mul (.num 6 1) (.sqrt (.add (.add (.add (.num 2 1) (.mul (.num 7 1) (.var 0))) (.mul (.num 7 1) (.pow (.var 0) 2))) (.mul (.num 2 1) (.pow (.var 0) 3)))))) (.mul (.var 0) (.sqrt (.add (.add (.add (.num 2 1) (.mul (.num 7 1) (.var 0))) (.mul (.num 7 1) (.pow (.var 0) 2))) (.mul (.num 2 1) (.pow (.var 0) 3))))))) (.mul (.hpow (.add (.num 2 1) (.var 0)) 1) (.add (.add (.num 15 1) (.mul (.num 11 1) (.var 0))) (.mul (.num 2 1) (.pow (.var 0) 2)))),
  .div (.add (.sqrt (.div (.add (.neg (.num 1 1)) (.mul (.num 2 1) (.var 0))) (.add (.num 1 1) (.mul (.num 2 1) (.var 0))))) (.sqrt (.add (.neg (.num 1 1)) (.mul (.num 4 1) (.pow (.var 0) 2))))) (.mul (.num 2 1) (.sqrt (.mul (.var 0) (.add (.num 1 1) (.var 0))))),
  .div (.add (.add (.neg (.sqrt (.mul (.var 0) (.add (.num 1 1) (.var 0))))) (.sqrt (.mul (.pow (.var 0) 3) (.add (.num 1 1) (.var 0))))) (.mul (.num 2 1) (.sqrt (.mul (.pow (.var 0) 5) (.add (.num 1 1) (.var 0)))))) (.mul (.mul (.var 0) (.add (.num 1 1) (.var 0))) (.sqrt (.add (.neg (.num 1 1)) (.mul (.num 4 1) (.pow (.var 0) 2))))),
  .div (.sqrt (.mul (.mul (.var 0) (.add (.num 1 1) (.var 0))) (.add (.neg (.num 1 1)) (.mul (.num 4 1) (.pow (.var 0) 2))))) (.mul (.var 0) (.add (.num 1 1) (.mul (.num 2 1) (.var 0)))),
  .div (.add (.add (.add (.div (.mul (.mul (.mul (.mul (.num 9 1) (.var 0)) (.hpow (.var 1) 2)) (.add (.num 1 1) (.var 1))) (.hpow (.add (.add (.num 6 1) (.mul (.num 7 1) (.var 1))) (.mul (.num 2 1) (.pow (.var 1) 2))) 1)) (.sqrt (.add (.num 1 1) (.mul (.num 2 1) (.var 1))))) (.mul (.mul (.mul (.mul (.mul (.num 3 1) (.var 0)) (.pow (.var 1) 2)) (.add (.num 1 1) (.var 1))) (.sqrt (.mul (.var 1) (.add (.num 1 1) (.mul (.num 2 1) (.var 1)))))) (.hpow (.add (.add (.num 6 1) (.mul (.num 7 1) (.var 1))) (.mul (.num 2 1) (.pow (.var 1) 2))) 1))) (.div (.mul (.mul (.mul (.num 6 1) (.var 0)) (.add (.num 1 1) (.var 1))) (.hpow (.mul (.var 1) (.add (.add (.num 6 1) (.mul (.num 7 1) (.var 1))) (.mul (.num 2 1) (.pow (.var 1) 2)))) 1)) (.sqrt (.add (.num 1 1) (.mul (.num 2 1) (.var 1)))))) (.mul (.var 1) (.sqrt (.mul (.mul (.mul (.mul (.pow (.var 0) 2) (.pow (.var 1) 3)) (.pow (.add (.num 1 1) (.var 1)) 4)) (.add (.num 1 1) (.mul (.num 2 1) (.var 1)))) (.pow (.add (.add (.num 6 1) (.mul (.num 7 1) (.var 1))) (.mul (.num 2 1) (.pow (.var 1) 2))) 3))))) (.sqrt (.div (.mul (.mul (.mul (.mul (.pow (.var 0) 3) (.add (.num 1 1) (.mul (.num 2 1) (.var 0)))) (.pow (.var 1) 3)) (.pow (.add (.num 1 1) (.var 1)) 4)) (.pow (.add (.add (.num 6 1) (.mul (.num 7 1) (.var 1))) (.mul (.num 2 1) (.pow (.var 1) 2))) 5)) (.add (.num 1 1) (.mul (.num 2 1) (.var 1))))),
  .div (.mul (.sqrt (.div (.add (.num 1 1) (.mul (.num 2 1) (.var 1))) (.add (.num 1 1) (.mul (.num 2 1) (.var 0))))) (.add (.add (.add (.mul (.mul (.num 29 1) (.var 1)) (.sqrt (.mul (.var 0) (.add (.add (.num 5 1) (.mul (.num 12 1) (.var 1))) (.mul (.num 4 1) (.pow (.var 1) 2)))))) (.mul (.mul (.num 13 1) (.pow (.var 1) 2)) (.sqrt (.mul (.var 0) (.add (.add (.num 5 1) (.mul (.num 12 1) (.var 1))) (.mul (.num 4 1) (.pow (.var 1) 2))))))) (.mul (.mul (.num 2 1) (.pow (.var 1) 3)) (.sqrt (.mul (.var 0) (.add (.add (.num 5 1) (.mul (.num 12 1) (.var 1))) (.mul (.num 4 1) (.pow (.var 1) 2))))))) (.mul (.num 6 1) (.add (.sqrt (.div (.mul (.var 0) (.add (.num 5 1) (.mul (.num 2 1) (.var 1)))) (.add (.num 1 1) (.mul (.num 2 1) (.var 1))))) (.mul (.num 4 1) (.sqrt (.mul (.var 0) (.add (.add (.num 5 1) (.mul (.num 12 1) (.var 1))) (.mul (.num 4 1) (.pow (.var 1) 2)))))))))) (.mul (.mul (.var 0) (.hpow (.add (.num 5 1) (.mul (.num 2 1) (.var 1))) 1)) (.add (.add (.add (.num 6 1) (.mul (.num 13 1) (.var 1))) (.mul (.num 9 1) (.pow (.var 1) 2))) (.mul (.num 2 1) (.pow (.var 1) 3)))),
  .div (.add (.div (.num 1 1) (.sqrt (.div (.mul (.var 0) (.add (.add (.num 1 1) (.mul (.num 3 1) (.var 0))) (.mul (.num 2 1) (.pow (.var 0) 2)))) (.add (.neg (.num 1 1)) (.mul (.num 2 1) (.var 0)))))) (.div (.num 1 1) (.sqrt (.div (.mul (.var 0) (.add (.num 1 1) (.var 0))) (.add (.neg (.num 1 1)) (.mul (.num 4 1) (.pow (.var 0) 2))))))) (.num 2 1),
  .div (.mul (.add (.neg (.num 1 1)) (.mul (.num 2 1) (.var 0))) (.add (.sqrt (.div (.mul (.var 0) (.add (.add (.num 1 1) (.mul (.num 3 1) (.var 0))) (.mul (.num 2 1) (.pow (.var 0) 2)))) (.add (.neg (.num 1 1)) (.mul (.num 2 1) (.var 0))))) (.sqrt (.div (.mul (.var 0) (.add (.num 1 1) (.var 0))) (.add (.neg (.num 1 1)) (.mul (.num 4 1) (.pow (.var 0) 2))))))) (.mul (.mul (.num 2 1) (.var 0)) (.add (.num 1 1) (.var 0))),
  .div (.add (.sqrt (.div (.mul (.var 0) (.add (.add (.neg (.num 1 1)) (.var 0)) (.mul (.num 2 1) (.pow (.var 0) 2)))) (.add (.num 1 1) (.mul (.num 2 1) (.var 0))))) (.sqrt (.mul (.var 0) (.add (.add (.sub (.neg (.num 1 1)) (.var 0)) (.mul (.num 4 1) (.pow (.var 0) 2))) (.mul (.num 4 1) (.pow (.var 0) 3)))))) (.add (.mul (.num 2 1) (.var 0)) (.mul (.num 2 1) (.pow (.var 0) 2))),
  .div (.num 1 1) (.var 0),
  .div (.num 1 1) (.add (.var 0) (.mul (.num 2 1) (.pow (.var 0) 2))),
  .div (.add (.add (.sqrt (.mul (.mul (.mul (.var 0) (.add (.num 1 1) (.var 0))) (.add (.neg (.num 1 1)) (.mul (.num 2 1) (.var 0)))) (.add (.num 1 1) (.mul (.num 2 1) (.var 0))))) (.sqrt (.div (.mul (.var 0) (.add (.neg (.num 1 1)) (.mul (.num 2 1) (.var 0)))) (.add (.add (.num 1 1) (.mul (.num 3 1) (.var 0))) (.mul (.num 2 1) (.pow (.var 0) 2)))))) (.sqrt (.div (.mul (.var 0) (.add (.neg (.num 1 1)) (.mul (.num 4 1) (.pow (.var 0) 2)))) (.add (.num 1 1) (.var 0))))) (.sqrt (.mul (.mul (.var 0) (.add (.num 1 1) (.mul (.num 2 1) (.var 0)))) (.add (.add (.num 3 1) (.mul (.num 5 1) (.var 0))) (.mul (.num 2 1) (.pow (.var 0) 2))))),
  .div (.add (.add (.sqrt (.div (.mul (.var 0) (.add (.neg (.num 1 1)) (.mul (.num 2 1) (.var 0)))) (.add (.add (.num 1 1) (.mul (.num 3 1) (.var 0))) (.mul (.num 2 1) (.pow (.var 0) 2))))) (.sqrt (.div (.mul (.var 0) (.add (.neg (.num 1 1)) (.mul (.num 4 1) (.pow (.var 0) 2)))) (.add (.num 1 1) (.var 0))))) (.sqrt (.mul (.var 0) (.add (.add (.sub (.neg (.num 1 1)) (.var 0)) (.mul (.num 4 1) (.pow (.var 0) 2))) (.mul (.num 4 1) (.pow (.var 0) 3)))))) (.sqrt (.mul (.mul (.var 0) (.add (.num 1 1) (.mul (.num 2 1) (.var 0)))) (.add (.add (.num 3 1) (.mul (.num 5 1) (.var 0))) (.mul (.num 2 1) (.pow (.var 0) 2))))),
  .div (.sqrt (.num 3 1)) (.sqrt (.mul (.var 0) (.add (.neg (.num 1 1)) (.mul (.num 2 1) (.var 0))))),
  .div (.sqrt (.num 3 1)) (.mul (.var 0) (.sqrt (.add (.neg (.num 1 1)) (.mul (.num 4 1) (.pow (.var 0) 2))))),
  .div (.mul (.num 2 1) (.add (.add (.sub (.sqrt (.neg (.div (.add (.num 1 1) (.var 0)) (.sub (.add (.num 1 1) (.var 0)) (.mul (.num 2 1) (.pow (.var 0) 2)))))) (.mul (.mul (.num 3 1) (.var 0)) (.sqrt (.neg (.div (.add (.num 1 1) (.var 0)) (.sub (.add (.num 1 1) (.var 0)) (.mul (.num 2 1) (.pow (.var 0) 2)))))))) (.mul (.mul (.num 2 1) (.pow (.var 0) 2)) (.sqrt (.neg (.div (.add (.num 1 1) (.var 0)) (.sub (.add (.num 1 1) (.var 0)) (.mul (.num 2 1) (.pow (.var 0) 2)))))))) (.mul (.num 3 1) (.sqrt (.div (.add (.neg (.num 1 1)) (.pow (.var 0) 2)) (.add (.num 1 1) (.mul (.num 2 1) (.var 0)))))))) (.mul (.add (.num 1 1) (.var 0)) (.sqrt (.mul (.var 0) (.add (.neg (.num 1 1)) (.mul (.num 4 1) (.pow (.var 0) 2)))))),
  .div (.add (.sub (.add (.add (.neg (.mul (.var 0) (.sqrt (.div (.mul (.mul (.add (.neg (.num 1 1)) (.mul (.num 2 1) (.var 0))) (.add (.num 1 1) (.mul (.num 2 1) (.var 0)))) (.add (.add (.num 3 1) (.mul (.num 5 1) (.var 0))) (.mul (.num 2 1) (.pow (.var 0) 2)))) (.add (.neg (.num 1 1)) (.var 0)))))) (.mul (.pow (.var 0) 2) (.sqrt (.div (.mul (.mul (.add (.neg (.num 1 1)) (.mul (.num 2 1) (.var 0))) (.add (.num 1 1) (.mul (.num 2 1) (.var 0)))) (.add (.add (.num 3 1) (.mul (.num 5 1) (.var 0))) (.mul (.num 2 1) (.pow (.var 0) 2)))) (.add (.neg (.num 1 1)) (.var 0)))))) (.mul (.num 3 1) (.sqrt (.div (.mul (.add (.sub (.num 1 1) (.mul (.num 3 1) (.var 0))) (.mul (.num 2 1) (.pow (.var 0) 2))) (.add (.add (.num 3 1) (.mul (.num 5 1) (.var 0))) (.mul (.num 2 1) (.pow (.var 0) 2)))) (.add (.num 1 1) (.mul (.num 2 1) (.var 0))))))) (.mul (.mul (.num 4 1) (.var 0)) (.sqrt (.div (.add (.add (.add (.neg (.num 3 1)) (.var 0)) (.mul (.num 8 1) (.pow (.var 0) 2))) (.mul (.num 4 1) (.pow (.var 0) 3))) (.add (.sub (.neg (.num 1 1)) (.var 0)) (.mul (.num 2 1) (.pow (.var 0) 2))))))) (.mul (.mul (.num 4 1) (.pow (.var 0) 2)) (.sqrt (.div (.add (.add (.add (.neg (.num 3 1)) (.var 0)) (.mul (.num 8 1) (.pow (.var 0) 2))) (.mul (.num 4 1) (.pow (.var 0) 3))) (.add (.sub (.neg (.num 1 1)) (.var 0)) (.mul (.num 2 1) (.pow (.var 0) 2))))))) (.mul (.mul (.var 0) (.sqrt (.add (.num 1 1) (.mul (.num 2 1) (.var 0))))) (.add (.add (.num 3 1) (.mul (.num 5 1) (.var 0))) (.mul (.num 2 1) (.pow (.var 0) 2)))),
  .div (.mul (.sqrt (.num 3 1)) (.add (.add (.mul (.num 3 1) (.sqrt (.div (.mul (.var 0) (.add (.add (.neg (.num 1 1)) (.var 0)) (.mul (.num 2 1) (.pow (.var 0) 2)))) (.add (.num 1 1) (.mul (.num 2 1) (.var 0)))))) (.mul (.mul (.num 4 1) (.var 0)) (.sqrt (.div (.mul (.var 0) (.add (.add (.neg (.num 1 1)) (.var 0)) (.mul (.num 2 1) (.pow (.var 0) 2)))) (.add (.num 1 1) (.mul (.num 2 1) (.var 0))))))) (.sqrt (.mul (.pow (.var 0) 3) (.add (.add (.sub (.neg (.num 1 1)) (.var 0)) (.mul (.num 4 1) (.pow (.var 0) 2))) (.mul (.num 4 1) (.pow (.var 0) 3))))))) (.mul (.mul (.mul (.var 0) (.hpow (.add (.num 1 1) (.var 0)) 1)) (.sqrt (.add (.num 1 1) (.mul (.num 2 1) (.var 0))))) (.add (.num 3 1) (.mul (.num 2 1) (.var 0)))),
  .div (.add (.add (.add (.mul (.mul (.num 3 1) (.add (.num 1 1) (.mul (.num 2 1) (.var 0)))) (.sqrt (.div (.mul (.var 0) (.add (.add (.neg (.num 1 1)) (.var 0)) (.mul (.num 2 1) (.pow (.var 0) 2)))) (.add (.num 3 1) (.mul (.num 2 1) (.var 0)))))) (.mul (.num 3 1) (.sqrt (.div (.mul (.var 0) (.add (.neg (.num 1 1)) (.mul (.num 2 1) (.var 0)))) (.add (.add (.num 3 1) (.mul (.num 5 1) (.var 0))) (.mul (.num 2 1) (.pow (.var 0) 2))))))) (.mul (.mul (.num 3 1) (.add (.num 1 1) (.mul (.num 2 1) (.var 0)))) (.sqrt (.div (.mul (.var 0) (.add (.neg (.num 1 1)) (.mul (.num 2 1) (.var 0)))) (.add (.add (.num 3 1) (.mul (.num 5 1) (.var 0))) (.mul (.num 2 1) (.pow (.var 0) 2))))))) (.mul (.add (.num 1 1) (.mul (.num 2 1) (.var 0))) (.sqrt (.mul (.var 0) (.add (.add (.add (.neg (.num 3 1)) (.var 0)) (.mul (.num 8 1) (.pow (.var 0) 2))) (.mul (.num 4 1) (.pow (.var 0) 3))))))) (.mul (.mul (.num 2 1) (.add (.num 1 1) (.var 0))) (.sqrt (.mul (.var 0) (.add (.add (.add (.num 6 1) (.mul (.num 19 1) (.var 0))) (.mul (.num 16 1) (.pow (.var 0) 2))) (.mul (.num 4 1) (.pow (.var 0) 3))))))]

end Verif.Coef
