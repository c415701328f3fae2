import Verif.Coef.Model
/-!
# The factors in the operator recalculation tables

Generated by `scripts/gen_factors.py` from `c++/symmetry/coefnew/*/*.dat`.  The position of
an expression is the number `k` of `Verif.Oper.OpRow`.  `var i` is the quantum number at
position `i` of the label.  Decimal numbers are read as the fraction with a denominator up to
100 they stand for (`1.6666666666666667` as 5/3).
-/

namespace Verif.Coef

/-- The factors of class `DBLISOSZ`. -/
def factors_DBLISOSZ : List Ex := [
  .num 1 1,
  .neg (.num 1 1),
  .div (.num 1 1) (.sub (.neg (.num 1 1)) (.mul (.num 2 1) (.var 0))),
  .div (.mul (.neg (.num 2 1)) (.sqrt (.mul (.var 0) (.add (.num 1 1) (.var 0))))) (.add (.num 1 1) (.mul (.num 2 1) (.var 0))),
  .div (.num 1 1) (.add (.num 1 1) (.mul (.num 2 1) (.var 0))),
  .div (.mul (.num 2 1) (.sqrt (.mul (.var 0) (.add (.num 1 1) (.var 0))))) (.add (.num 1 1) (.mul (.num 2 1) (.var 0))),
  .div (.num 1 1) (.sub (.neg (.num 1 1)) (.mul (.num 2 1) (.var 1))),
  .div (.mul (.neg (.num 2 1)) (.sqrt (.mul (.var 1) (.add (.num 1 1) (.var 1))))) (.add (.num 1 1) (.mul (.num 2 1) (.var 1))),
  .div (.num 1 1) (.add (.num 1 1) (.mul (.num 2 1) (.var 1))),
  .div (.mul (.num 2 1) (.sqrt (.mul (.var 1) (.add (.num 1 1) (.var 1))))) (.add (.num 1 1) (.mul (.num 2 1) (.var 1)))]

/-- The factors of class `DBLQSZ`. -/
def factors_DBLQSZ : List Ex := [
  .num 1 1,
  .neg (.num 1 1)]

/-- The factors of class `DBLSU2`. -/
def factors_DBLSU2 : List Ex := [
  .num 1 1,
  .neg (.num 1 1),
  .div (.num 1 1) (.sub (.neg (.num 1 1)) (.mul (.num 2 1) (.var 0))),
  .div (.mul (.neg (.num 2 1)) (.sqrt (.mul (.var 0) (.add (.num 1 1) (.var 0))))) (.add (.num 1 1) (.mul (.num 2 1) (.var 0))),
  .div (.num 1 1) (.add (.num 1 1) (.mul (.num 2 1) (.var 0))),
  .div (.mul (.num 2 1) (.sqrt (.mul (.var 0) (.add (.num 1 1) (.var 0))))) (.add (.num 1 1) (.mul (.num 2 1) (.var 0))),
  .div (.num 1 1) (.sub (.neg (.num 1 1)) (.mul (.num 2 1) (.var 1))),
  .div (.mul (.neg (.num 2 1)) (.sqrt (.mul (.var 1) (.add (.num 1 1) (.var 1))))) (.add (.num 1 1) (.mul (.num 2 1) (.var 1))),
  .div (.num 1 1) (.add (.num 1 1) (.mul (.num 2 1) (.var 1))),
  .div (.mul (.num 2 1) (.sqrt (.mul (.var 1) (.add (.num 1 1) (.var 1))))) (.add (.num 1 1) (.mul (.num 2 1) (.var 1)))]

/-- The factors of class `ISO`. -/
def factors_ISO : List Ex := [
  .num 1 1,
  .div (.num 1 1) (.add (.num 1 1) (.mul (.num 2 1) (.var 0))),
  .div (.mul (.num 2 1) (.sqrt (.mul (.var 0) (.add (.num 1 1) (.var 0))))) (.add (.num 1 1) (.mul (.num 2 1) (.var 0))),
  .div (.mul (.neg (.num 2 1)) (.sqrt (.mul (.var 1) (.add (.num 1 1) (.var 1))))) (.add (.num 1 1) (.mul (.num 2 1) (.var 1))),
  .div (.num 1 1) (.add (.num 1 1) (.mul (.num 2 1) (.var 1))),
  .neg (.num 1 1),
  .div (.num 1 1) (.sub (.neg (.num 1 1)) (.mul (.num 2 1) (.var 1))),
  .div (.num 1 1) (.sub (.neg (.num 1 1)) (.mul (.num 2 1) (.var 0))),
  .div (.num 1 1) (.sqrt (.mul (.var 0) (.add (.num 1 1) (.mul (.num 2 1) (.var 0))))),
  .div (.add (.add (.neg (.num 1 1)) (.var 0)) (.mul (.num 2 1) (.pow (.var 0) 2))) (.sqrt (.mul (.mul (.var 0) (.add (.num 1 1) (.var 0))) (.add (.neg (.num 1 1)) (.mul (.num 4 1) (.pow (.var 0) 2))))),
  .div (.num 1 1) (.sqrt (.mul (.add (.num 1 1) (.var 0)) (.add (.num 1 1) (.mul (.num 2 1) (.var 0))))),
  .sqrt (.sub (.add (.num 1 1) (.div (.num 1 1) (.add (.num 1 1) (.var 0)))) (.div (.num 2 1) (.add (.num 1 1) (.mul (.num 2 1) (.var 0))))),
  .div (.mul (.neg (.num 2 1)) (.sqrt (.mul (.var 1) (.add (.num 1 1) (.var 1))))) (.add (.add (.add (.num 1 1) (.mul (.num 2 1) (.var 0))) (.mul (.num 2 1) (.var 1))) (.mul (.mul (.num 4 1) (.var 0)) (.var 1))),
  .div (.mul (.neg (.num 4 1)) (.sqrt (.mul (.mul (.mul (.var 0) (.add (.num 1 1) (.var 0))) (.var 1)) (.add (.num 1 1) (.var 1))))) (.add (.add (.add (.num 1 1) (.mul (.num 2 1) (.var 0))) (.mul (.num 2 1) (.var 1))) (.mul (.mul (.num 4 1) (.var 0)) (.var 1))),
  .div (.num 1 1) (.add (.add (.add (.num 1 1) (.mul (.num 2 1) (.var 0))) (.mul (.num 2 1) (.var 1))) (.mul (.mul (.num 4 1) (.var 0)) (.var 1))),
  .div (.mul (.num 2 1) (.sqrt (.mul (.var 0) (.add (.num 1 1) (.var 0))))) (.add (.add (.add (.num 1 1) (.mul (.num 2 1) (.var 0))) (.mul (.num 2 1) (.var 1))) (.mul (.mul (.num 4 1) (.var 0)) (.var 1))),
  .div (.mul (.neg (.num 2 1)) (.add (.add (.sqrt (.mul (.var 0) (.add (.num 1 1) (.var 0)))) (.mul (.num 2 1) (.sqrt (.mul (.pow (.var 0) 3) (.add (.num 1 1) (.var 0)))))) (.sqrt (.mul (.pow (.var 0) 5) (.add (.num 1 1) (.var 0)))))) (.mul (.pow (.add (.num 1 1) (.var 0)) 2) (.add (.num 1 1) (.mul (.num 2 1) (.var 0)))),
  .div (.num 1 1) (.sqrt (.div (.mul (.var 1) (.add (.num 1 1) (.mul (.num 2 1) (.var 1)))) (.add (.add (.neg (.num 1 1)) (.var 1)) (.mul (.num 2 1) (.pow (.var 1) 2))))),
  .neg (.div (.num 1 1) (.sqrt (.mul (.var 1) (.add (.num 1 1) (.mul (.num 2 1) (.var 1)))))),
  .div (.mul (.var 1) (.add (.num 3 1) (.mul (.num 2 1) (.var 1)))) (.sqrt (.mul (.mul (.var 1) (.add (.num 1 1) (.var 1))) (.add (.num 3 1) (.mul (.mul (.num 4 1) (.var 1)) (.add (.num 2 1) (.var 1)))))),
  .neg (.div (.num 1 1) (.sqrt (.mul (.add (.num 1 1) (.var 1)) (.add (.num 1 1) (.mul (.num 2 1) (.var 1)))))),
  .neg (.div (.num 1 1) (.add (.add (.add (.num 1 1) (.mul (.num 2 1) (.var 0))) (.mul (.num 2 1) (.var 1))) (.mul (.mul (.num 4 1) (.var 0)) (.var 1)))),
  .div (.mul (.neg (.num 2 1)) (.sqrt (.mul (.var 0) (.add (.num 1 1) (.var 0))))) (.add (.num 1 1) (.mul (.num 2 1) (.var 0))),
  .div (.mul (.neg (.num 2 1)) (.sqrt (.mul (.var 0) (.add (.num 1 1) (.var 0))))) (.add (.add (.add (.num 1 1) (.mul (.num 2 1) (.var 0))) (.mul (.num 2 1) (.var 1))) (.mul (.mul (.num 4 1) (.var 0)) (.var 1))),
  .div (.num 1 1) (.sqrt (.mul (.var 1) (.add (.num 1 1) (.mul (.num 2 1) (.var 1))))),
  .div (.add (.add (.neg (.num 1 1)) (.var 1)) (.mul (.num 2 1) (.pow (.var 1) 2))) (.sqrt (.mul (.mul (.var 1) (.add (.num 1 1) (.var 1))) (.add (.neg (.num 1 1)) (.mul (.num 4 1) (.pow (.var 1) 2))))),
  .div (.num 1 1) (.sqrt (.mul (.add (.num 1 1) (.var 1)) (.add (.num 1 1) (.mul (.num 2 1) (.var 1))))),
  .sqrt (.sub (.add (.num 1 1) (.div (.num 1 1) (.add (.num 1 1) (.var 1)))) (.div (.num 2 1) (.add (.num 1 1) (.mul (.num 2 1) (.var 1))))),
  .div (.num 1 1) (.sqrt (.div (.mul (.var 0) (.add (.num 1 1) (.mul (.num 2 1) (.var 0)))) (.add (.add (.neg (.num 1 1)) (.var 0)) (.mul (.num 2 1) (.pow (.var 0) 2))))),
  .neg (.div (.num 1 1) (.sqrt (.mul (.var 0) (.add (.num 1 1) (.mul (.num 2 1) (.var 0)))))),
  .div (.mul (.var 0) (.add (.num 3 1) (.mul (.num 2 1) (.var 0)))) (.sqrt (.mul (.mul (.var 0) (.add (.num 1 1) (.var 0))) (.add (.num 3 1) (.mul (.mul (.num 4 1) (.var 0)) (.add (.num 2 1) (.var 0)))))),
  .neg (.div (.num 1 1) (.sqrt (.mul (.add (.num 1 1) (.var 0)) (.add (.num 1 1) (.mul (.num 2 1) (.var 0)))))),
  .div (.mul (.num 2 1) (.sqrt (.mul (.var 1) (.add (.num 1 1) (.var 1))))) (.add (.add (.add (.num 1 1) (.mul (.num 2 1) (.var 0))) (.mul (.num 2 1) (.var 1))) (.mul (.mul (.num 4 1) (.var 0)) (.var 1))),
  .add (.add (.sqrt (.div (.mul (.var 1) (.add (.num 1 1) (.mul (.num 2 1) (.var 1)))) (.mul (.pow (.add (.num 1 1) (.var 1)) 3) (.add (.num 3 1) (.mul (.num 2 1) (.var 1)))))) (.sqrt (.div (.mul (.pow (.var 1) 3) (.add (.num 1 1) (.mul (.num 2 1) (.var 1)))) (.mul (.pow (.add (.num 1 1) (.var 1)) 3) (.add (.num 3 1) (.mul (.num 2 1) (.var 1))))))) (.mul (.num 2 1) (.sqrt (.div (.var 1) (.add (.add (.add (.num 3 1) (.mul (.num 11 1) (.var 1))) (.mul (.num 12 1) (.pow (.var 1) 2))) (.mul (.num 4 1) (.pow (.var 1) 3)))))),
  .div (.sqrt (.div (.mul (.mul (.var 1) (.add (.num 1 1) (.var 1))) (.add (.num 3 1) (.mul (.num 2 1) (.var 1)))) (.add (.num 1 1) (.mul (.num 2 1) (.var 1))))) (.add (.num 1 1) (.var 1)),
  .div (.add (.div (.num 1 1) (.sqrt (.div (.mul (.mul (.var 1) (.add (.num 1 1) (.var 1))) (.add (.num 1 1) (.mul (.num 2 1) (.var 1)))) (.add (.neg (.num 1 1)) (.mul (.num 2 1) (.var 1)))))) (.div (.num 1 1) (.sqrt (.div (.mul (.var 1) (.add (.num 1 1) (.var 1))) (.add (.neg (.num 1 1)) (.mul (.num 4 1) (.pow (.var 1) 2))))))) (.num 2 1),
  .add (.add (.add (.mul (.num 2 1) (.sqrt (.div (.var 1) (.add (.add (.add (.num 3 1) (.mul (.num 11 1) (.var 1))) (.mul (.num 12 1) (.pow (.var 1) 2))) (.mul (.num 4 1) (.pow (.var 1) 3)))))) (.sqrt (.div (.var 1) (.mul (.pow (.add (.num 1 1) (.var 1)) 3) (.add (.num 3 1) (.mul (.mul (.num 4 1) (.var 1)) (.add (.num 2 1) (.var 1)))))))) (.mul (.mul (.num 3 1) (.var 1)) (.sqrt (.div (.var 1) (.mul (.pow (.add (.num 1 1) (.var 1)) 3) (.add (.num 3 1) (.mul (.mul (.num 4 1) (.var 1)) (.add (.num 2 1) (.var 1))))))))) (.mul (.num 2 1) (.sqrt (.div (.pow (.var 1) 5) (.mul (.pow (.add (.num 1 1) (.var 1)) 3) (.add (.num 3 1) (.mul (.mul (.num 4 1) (.var 1)) (.add (.num 2 1) (.var 1)))))))),
  .div (.sqrt (.add (.neg (.num 1 1)) (.pow (.var 1) 2))) (.var 1),
  .div (.sqrt (.sub (.num 1 1) (.div (.num 2 1) (.add (.num 1 1) (.mul (.num 2 1) (.var 1)))))) (.var 1),
  .neg (.div (.num 1 1) (.var 1)),
  .add (.sub (.num 1 1) (.div (.num 1 1) (.var 1))) (.div (.num 1 1) (.add (.num 1 1) (.var 1))),
  .div (.num 1 1) (.add (.num 1 1) (.var 1)),
  .neg (.div (.add (.num 3 1) (.mul (.num 2 1) (.var 1))) (.mul (.add (.num 1 1) (.var 1)) (.sqrt (.add (.num 3 1) (.mul (.mul (.num 4 1) (.var 1)) (.add (.num 2 1) (.var 1))))))),
  .div (.sqrt (.mul (.var 1) (.add (.num 2 1) (.var 1)))) (.add (.num 1 1) (.var 1)),
  .div (.sqrt (.add (.neg (.num 3 1)) (.mul (.mul (.num 4 1) (.var 1)) (.add (.num 1 1) (.var 1))))) (.add (.num 1 1) (.mul (.num 2 1) (.var 1))),
  .neg (.div (.sqrt (.add (.num 3 1) (.mul (.mul (.num 4 1) (.var 1)) (.add (.num 2 1) (.var 1))))) (.mul (.add (.num 1 1) (.var 1)) (.add (.num 1 1) (.mul (.num 2 1) (.var 1))))),
  .div (.num 1 1) (.add (.add (.num 1 1) (.mul (.num 3 1) (.var 1))) (.mul (.num 2 1) (.pow (.var 1) 2))),
  .neg (.div (.num 1 1) (.add (.num 1 1) (.var 1))),
  .div (.sqrt (.div (.mul (.add (.num 1 1) (.var 1)) (.add (.neg (.num 1 1)) (.mul (.num 4 1) (.pow (.var 1) 2)))) (.var 1))) (.add (.num 1 1) (.mul (.num 2 1) (.var 1))),
  .div (.sqrt (.add (.add (.sub (.neg (.num 1 1)) (.div (.num 1 1) (.var 1))) (.mul (.num 4 1) (.var 1))) (.mul (.num 4 1) (.pow (.var 1) 2)))) (.add (.num 1 1) (.mul (.num 2 1) (.var 1))),
  .div (.num 1 1) (.var 1),
  .div (.num 1 1) (.add (.var 1) (.mul (.num 2 1) (.pow (.var 1) 2)))]

/-- The factors of class `ISO2`. -/
def factors_ISO2 : List Ex := [
  .num 1 1,
  .div (.num 1 1) (.add (.num 1 1) (.mul (.num 2 1) (.var 0))),
  .div (.mul (.num 2 1) (.sqrt (.mul (.var 0) (.add (.num 1 1) (.var 0))))) (.add (.num 1 1) (.mul (.num 2 1) (.var 0))),
  .div (.mul (.neg (.num 2 1)) (.sqrt (.mul (.var 1) (.add (.num 1 1) (.var 1))))) (.add (.num 1 1) (.mul (.num 2 1) (.var 1))),
  .div (.num 1 1) (.add (.num 1 1) (.mul (.num 2 1) (.var 1))),
  .neg (.num 1 1),
  .div (.num 1 1) (.sub (.neg (.num 1 1)) (.mul (.num 2 1) (.var 1))),
  .div (.num 1 1) (.sub (.neg (.num 1 1)) (.mul (.num 2 1) (.var 0))),
  .div (.num 1 1) (.sqrt (.mul (.var 0) (.add (.num 1 1) (.mul (.num 2 1) (.var 0))))),
  .div (.add (.add (.neg (.num 1 1)) (.var 0)) (.mul (.num 2 1) (.pow (.var 0) 2))) (.sqrt (.mul (.mul (.mul (.var 0) (.add (.num 1 1) (.var 0))) (.add (.neg (.num 1 1)) (.mul (.num 2 1) (.var 0)))) (.add (.num 1 1) (.mul (.num 2 1) (.var 0))))),
  .div (.num 1 1) (.sqrt (.mul (.add (.num 1 1) (.var 0)) (.add (.num 1 1) (.mul (.num 2 1) (.var 0))))),
  .add (.add (.sqrt (.div (.mul (.var 0) (.add (.num 1 1) (.mul (.num 2 1) (.var 0)))) (.mul (.pow (.add (.num 1 1) (.var 0)) 3) (.add (.num 3 1) (.mul (.num 2 1) (.var 0)))))) (.sqrt (.div (.var 0) (.mul (.pow (.add (.num 1 1) (.var 0)) 3) (.add (.num 3 1) (.mul (.mul (.num 4 1) (.var 0)) (.add (.num 2 1) (.var 0)))))))) (.sqrt (.sub (.add (.num 1 1) (.div (.num 1 1) (.add (.num 1 1) (.var 0)))) (.div (.num 6 1) (.add (.num 3 1) (.mul (.num 2 1) (.var 0)))))),
  .div (.mul (.neg (.num 2 1)) (.sqrt (.mul (.var 1) (.add (.num 1 1) (.var 1))))) (.add (.add (.add (.num 1 1) (.mul (.num 2 1) (.var 0))) (.mul (.num 2 1) (.var 1))) (.mul (.mul (.num 4 1) (.var 0)) (.var 1))),
  .div (.mul (.neg (.num 4 1)) (.sqrt (.mul (.mul (.mul (.var 0) (.add (.num 1 1) (.var 0))) (.var 1)) (.add (.num 1 1) (.var 1))))) (.add (.add (.add (.num 1 1) (.mul (.num 2 1) (.var 0))) (.mul (.num 2 1) (.var 1))) (.mul (.mul (.num 4 1) (.var 0)) (.var 1))),
  .div (.num 1 1) (.add (.add (.add (.num 1 1) (.mul (.num 2 1) (.var 0))) (.mul (.num 2 1) (.var 1))) (.mul (.mul (.num 4 1) (.var 0)) (.var 1))),
  .div (.mul (.num 2 1) (.sqrt (.mul (.var 0) (.add (.num 1 1) (.var 0))))) (.add (.add (.add (.num 1 1) (.mul (.num 2 1) (.var 0))) (.mul (.num 2 1) (.var 1))) (.mul (.mul (.num 4 1) (.var 0)) (.var 1))),
  .div (.mul (.neg (.num 2 1)) (.sqrt (.mul (.var 0) (.add (.num 1 1) (.var 0))))) (.add (.num 1 1) (.mul (.num 2 1) (.var 0))),
  .div (.num 1 1) (.sqrt (.div (.mul (.var 1) (.add (.num 1 1) (.mul (.num 2 1) (.var 1)))) (.add (.add (.neg (.num 1 1)) (.var 1)) (.mul (.num 2 1) (.pow (.var 1) 2))))),
  .neg (.div (.num 1 1) (.sqrt (.mul (.var 1) (.add (.num 1 1) (.mul (.num 2 1) (.var 1)))))),
  .div (.add (.mul (.num 3 1) (.sqrt (.mul (.var 1) (.add (.num 3 1) (.mul (.mul (.num 4 1) (.var 1)) (.add (.num 2 1) (.var 1))))))) (.mul (.num 2 1) (.sqrt (.mul (.pow (.var 1) 3) (.add (.num 3 1) (.mul (.mul (.num 4 1) (.var 1)) (.add (.num 2 1) (.var 1)))))))) (.mul (.sqrt (.add (.num 1 1) (.var 1))) (.add (.num 3 1) (.mul (.mul (.num 4 1) (.var 1)) (.add (.num 2 1) (.var 1))))),
  .neg (.div (.num 1 1) (.sqrt (.mul (.add (.num 1 1) (.var 1)) (.add (.num 1 1) (.mul (.num 2 1) (.var 1)))))),
  .neg (.div (.num 1 1) (.add (.add (.add (.num 1 1) (.mul (.num 2 1) (.var 0))) (.mul (.num 2 1) (.var 1))) (.mul (.mul (.num 4 1) (.var 0)) (.var 1)))),
  .div (.mul (.neg (.num 2 1)) (.sqrt (.mul (.var 0) (.add (.num 1 1) (.var 0))))) (.add (.add (.add (.num 1 1) (.mul (.num 2 1) (.var 0))) (.mul (.num 2 1) (.var 1))) (.mul (.mul (.num 4 1) (.var 0)) (.var 1))),
  .div (.num 1 1) (.sqrt (.mul (.var 1) (.add (.num 1 1) (.mul (.num 2 1) (.var 1))))),
  .div (.add (.add (.neg (.num 1 1)) (.var 1)) (.mul (.num 2 1) (.pow (.var 1) 2))) (.sqrt (.mul (.mul (.mul (.var 1) (.add (.num 1 1) (.var 1))) (.add (.neg (.num 1 1)) (.mul (.num 2 1) (.var 1)))) (.add (.num 1 1) (.mul (.num 2 1) (.var 1))))),
  .div (.num 1 1) (.sqrt (.mul (.add (.num 1 1) (.var 1)) (.add (.num 1 1) (.mul (.num 2 1) (.var 1))))),
  .add (.add (.sqrt (.div (.mul (.var 1) (.add (.num 1 1) (.mul (.num 2 1) (.var 1)))) (.mul (.pow (.add (.num 1 1) (.var 1)) 3) (.add (.num 3 1) (.mul (.num 2 1) (.var 1)))))) (.sqrt (.div (.var 1) (.mul (.pow (.add (.num 1 1) (.var 1)) 3) (.add (.num 3 1) (.mul (.mul (.num 4 1) (.var 1)) (.add (.num 2 1) (.var 1)))))))) (.sqrt (.sub (.add (.num 1 1) (.div (.num 1 1) (.add (.num 1 1) (.var 1)))) (.div (.num 6 1) (.add (.num 3 1) (.mul (.num 2 1) (.var 1)))))),
  .div (.num 1 1) (.sqrt (.div (.mul (.var 0) (.add (.num 1 1) (.mul (.num 2 1) (.var 0)))) (.add (.add (.neg (.num 1 1)) (.var 0)) (.mul (.num 2 1) (.pow (.var 0) 2))))),
  .neg (.div (.num 1 1) (.sqrt (.mul (.var 0) (.add (.num 1 1) (.mul (.num 2 1) (.var 0)))))),
  .div (.add (.mul (.num 3 1) (.sqrt (.mul (.var 0) (.add (.num 3 1) (.mul (.mul (.num 4 1) (.var 0)) (.add (.num 2 1) (.var 0))))))) (.mul (.num 2 1) (.sqrt (.mul (.pow (.var 0) 3) (.add (.num 3 1) (.mul (.mul (.num 4 1) (.var 0)) (.add (.num 2 1) (.var 0)))))))) (.mul (.sqrt (.add (.num 1 1) (.var 0))) (.add (.num 3 1) (.mul (.mul (.num 4 1) (.var 0)) (.add (.num 2 1) (.var 0))))),
  .neg (.div (.num 1 1) (.sqrt (.mul (.add (.num 1 1) (.var 0)) (.add (.num 1 1) (.mul (.num 2 1) (.var 0)))))),
  .div (.mul (.num 2 1) (.sqrt (.mul (.var 1) (.add (.num 1 1) (.var 1))))) (.add (.add (.add (.num 1 1) (.mul (.num 2 1) (.var 0))) (.mul (.num 2 1) (.var 1))) (.mul (.mul (.num 4 1) (.var 0)) (.var 1))),
  .div (.add (.num 3 1) (.mul (.num 2 1) (.var 1))) (.sqrt (.div (.mul (.add (.num 1 1) (.var 1)) (.add (.num 3 1) (.mul (.mul (.num 4 1) (.var 1)) (.add (.num 2 1) (.var 1))))) (.var 1))),
  .div (.sqrt (.div (.mul (.mul (.var 1) (.add (.num 1 1) (.var 1))) (.add (.num 3 1) (.mul (.num 2 1) (.var 1)))) (.add (.num 1 1) (.mul (.num 2 1) (.var 1))))) (.add (.num 1 1) (.var 1)),
  .div (.add (.neg (.sqrt (.mul (.mul (.add (.num 1 1) (.var 1)) (.add (.num 1 1) (.mul (.num 2 1) (.var 1)))) (.add (.num 3 1) (.mul (.num 2 1) (.var 1)))))) (.mul (.mul (.num 2 1) (.var 1)) (.sqrt (.add (.add (.num 2 1) (.var 1)) (.div (.num 1 1) (.add (.num 1 1) (.mul (.num 2 1) (.var 1)))))))) (.mul (.add (.num 1 1) (.var 1)) (.sqrt (.add (.num 3 1) (.mul (.num 2 1) (.var 1))))),
  .div (.add (.div (.num 1 1) (.sqrt (.div (.mul (.mul (.var 1) (.add (.num 1 1) (.var 1))) (.add (.num 1 1) (.mul (.num 2 1) (.var 1)))) (.add (.neg (.num 1 1)) (.mul (.num 2 1) (.var 1)))))) (.div (.num 1 1) (.sqrt (.div (.mul (.var 1) (.add (.num 1 1) (.var 1))) (.add (.neg (.num 1 1)) (.mul (.num 4 1) (.pow (.var 1) 2))))))) (.num 2 1),
  .div (.add (.mul (.num 2 1) (.sqrt (.div (.var 1) (.add (.num 3 1) (.mul (.mul (.num 4 1) (.var 1)) (.add (.num 2 1) (.var 1))))))) (.sqrt (.sub (.var 1) (.div (.mul (.num 2 1) (.var 1)) (.add (.num 3 1) (.mul (.num 2 1) (.var 1))))))) (.sqrt (.add (.num 1 1) (.var 1))),
  .div (.sqrt (.add (.neg (.num 1 1)) (.pow (.var 1) 2))) (.var 1),
  .div (.sqrt (.sub (.num 1 1) (.div (.num 2 1) (.add (.num 1 1) (.mul (.num 2 1) (.var 1)))))) (.var 1),
  .neg (.div (.num 1 1) (.var 1)),
  .add (.sub (.num 1 1) (.div (.num 1 1) (.var 1))) (.div (.num 1 1) (.add (.num 1 1) (.var 1))),
  .div (.num 1 1) (.add (.num 1 1) (.var 1)),
  .div (.sub (.neg (.num 3 1)) (.mul (.num 2 1) (.var 1))) (.mul (.add (.num 1 1) (.var 1)) (.sqrt (.add (.num 3 1) (.mul (.mul (.num 4 1) (.var 1)) (.add (.num 2 1) (.var 1)))))),
  .div (.add (.add (.add (.add (.add (.mul (.num 12 1) (.sqrt (.mul (.mul (.var 1) (.add (.num 1 1) (.var 1))) (.add (.num 2 1) (.var 1))))) (.mul (.num 33 1) (.sqrt (.mul (.mul (.pow (.var 1) 5) (.add (.num 1 1) (.var 1))) (.add (.num 2 1) (.var 1)))))) (.mul (.num 24 1) (.sqrt (.mul (.mul (.pow (.var 1) 7) (.add (.num 1 1) (.var 1))) (.add (.num 2 1) (.var 1)))))) (.mul (.num 4 1) (.sqrt (.mul (.mul (.pow (.var 1) 9) (.add (.num 1 1) (.var 1))) (.add (.num 2 1) (.var 1)))))) (.mul (.num 18 1) (.sqrt (.div (.mul (.mul (.var 1) (.add (.num 2 1) (.var 1))) (.pow (.add (.num 1 1) (.mul (.num 2 1) (.var 1))) 2)) (.mul (.add (.num 1 1) (.var 1)) (.pow (.add (.num 3 1) (.mul (.num 2 1) (.var 1))) 2)))))) (.mul (.var 1) (.add (.add (.mul (.num 29 1) (.sqrt (.mul (.mul (.var 1) (.add (.num 1 1) (.var 1))) (.add (.num 2 1) (.var 1))))) (.mul (.num 60 1) (.sqrt (.div (.mul (.mul (.var 1) (.add (.num 2 1) (.var 1))) (.pow (.add (.num 1 1) (.mul (.num 2 1) (.var 1))) 2)) (.mul (.add (.num 1 1) (.var 1)) (.pow (.add (.num 3 1) (.mul (.num 2 1) (.var 1))) 2)))))) (.mul (.mul (.mul (.num 2 1) (.var 1)) (.sqrt (.div (.mul (.mul (.var 1) (.add (.num 2 1) (.var 1))) (.pow (.add (.num 1 1) (.mul (.num 2 1) (.var 1))) 2)) (.mul (.add (.num 1 1) (.var 1)) (.pow (.add (.num 3 1) (.mul (.num 2 1) (.var 1))) 2))))) (.add (.num 31 1) (.mul (.num 10 1) (.var 1))))))) (.mul (.mul (.hpow (.add (.num 1 1) (.var 1)) 2) (.add (.num 2 1) (.var 1))) (.pow (.add (.num 3 1) (.mul (.num 2 1) (.var 1))) 2)),
  .sqrt (.sub (.add (.num 1 1) (.div (.num 1 1) (.add (.num 1 1) (.var 1)))) (.div (.num 2 1) (.add (.num 1 1) (.mul (.num 2 1) (.var 1))))),
  .div (.sqrt (.add (.neg (.num 3 1)) (.mul (.mul (.num 4 1) (.var 1)) (.add (.num 1 1) (.var 1))))) (.add (.num 1 1) (.mul (.num 2 1) (.var 1))),
  .neg (.div (.sqrt (.add (.num 1 1) (.div (.num 2 1) (.add (.num 1 1) (.mul (.num 2 1) (.var 1)))))) (.add (.num 1 1) (.var 1))),
  .div (.sqrt (.mul (.var 1) (.add (.num 2 1) (.var 1)))) (.add (.num 1 1) (.var 1)),
  .div (.num 1 1) (.add (.add (.num 1 1) (.mul (.num 3 1) (.var 1))) (.mul (.num 2 1) (.pow (.var 1) 2))),
  .neg (.div (.num 1 1) (.add (.num 1 1) (.var 1))),
  .div (.num 1 1) (.var 1),
  .div (.num 1 1) (.add (.var 1) (.mul (.num 2 1) (.pow (.var 1) 2)))]

/-- The factors of class `ISOLR`. -/
def factors_ISOLR : List Ex := [
  .num 1 1,
  .mul (.add (.neg (.num 1 1)) (.mul (.num 2 1) (.var 1))) (.sqrt (.neg (.div (.add (.num 1 1) (.var 1)) (.sub (.var 1) (.mul (.num 4 1) (.pow (.var 1) 3)))))),
  .neg (.div (.num 1 1) (.sqrt (.mul (.var 1) (.add (.num 1 1) (.mul (.num 2 1) (.var 1)))))),
  .div (.mul (.var 1) (.add (.num 3 1) (.mul (.num 2 1) (.var 1)))) (.sqrt (.mul (.mul (.var 1) (.add (.num 1 1) (.var 1))) (.add (.num 3 1) (.mul (.mul (.num 4 1) (.var 1)) (.add (.num 2 1) (.var 1)))))),
  .neg (.div (.num 1 1) (.sqrt (.mul (.add (.num 1 1) (.var 1)) (.add (.num 1 1) (.mul (.num 2 1) (.var 1)))))),
  .div (.mul (.num 2 1) (.sqrt (.mul (.var 1) (.add (.num 1 1) (.var 1))))) (.add (.num 1 1) (.mul (.num 2 1) (.var 1))),
  .mul (.num 2 1) (.sqrt (.div (.mul (.var 1) (.add (.num 1 1) (.var 1))) (.mul (.pow (.add (.num 1 1) (.mul (.num 2 1) (.var 0))) 2) (.pow (.add (.num 1 1) (.mul (.num 2 1) (.var 1))) 2)))),
  .div (.mul (.num 4 1) (.sqrt (.div (.mul (.mul (.mul (.var 0) (.add (.num 1 1) (.var 0))) (.var 1)) (.add (.num 1 1) (.var 1))) (.pow (.add (.num 1 1) (.mul (.num 2 1) (.var 1))) 2)))) (.add (.num 1 1) (.mul (.num 2 1) (.var 0))),
  .div (.num 1 1) (.sub (.neg (.num 1 1)) (.mul (.num 2 1) (.var 1))),
  .neg (.div (.num 1 1) (.add (.add (.add (.num 1 1) (.mul (.num 2 1) (.var 0))) (.mul (.num 2 1) (.var 1))) (.mul (.mul (.num 4 1) (.var 0)) (.var 1)))),
  .div (.num 1 1) (.add (.num 1 1) (.mul (.num 2 1) (.var 0))),
  .div (.mul (.neg (.num 2 1)) (.sqrt (.add (.var 0) (.pow (.var 0) 2)))) (.add (.add (.add (.num 1 1) (.mul (.num 2 1) (.var 0))) (.mul (.num 2 1) (.var 1))) (.mul (.mul (.num 4 1) (.var 0)) (.var 1))),
  .div (.mul (.num 2 1) (.sqrt (.mul (.var 0) (.add (.num 1 1) (.var 0))))) (.add (.num 1 1) (.mul (.num 2 1) (.var 0))),
  .mul (.sqrt (.div (.num 1 1) (.add (.neg (.num 1 1)) (.mul (.num 2 1) (.var 0))))) (.sqrt (.add (.neg (.num 1 1)) (.mul (.num 2 1) (.var 0)))),
  .mul (.sqrt (.div (.num 1 1) (.add (.neg (.var 0)) (.mul (.num 2 1) (.pow (.var 0) 2))))) (.sqrt (.sub (.num 1 1) (.div (.num 2 1) (.add (.num 1 1) (.mul (.num 2 1) (.var 0)))))),
  .div (.add (.mul (.var 0) (.add (.neg (.num 1 1)) (.mul (.num 2 1) (.var 0)))) (.mul (.sqrt (.add (.neg (.num 1 1)) (.mul (.num 4 1) (.pow (.var 0) 2)))) (.sqrt (.sub (.num 1 1) (.div (.num 2 1) (.add (.num 1 1) (.mul (.num 2 1) (.var 0)))))))) (.sqrt (.mul (.mul (.var 0) (.add (.num 1 1) (.var 0))) (.add (.neg (.num 1 1)) (.mul (.num 4 1) (.pow (.var 0) 2))))),
  .div (.num 1 1) (.sqrt (.mul (.add (.num 1 1) (.var 0)) (.add (.num 1 1) (.mul (.num 2 1) (.var 0))))),
  .div (.sqrt (.div (.mul (.var 0) (.add (.num 3 1) (.mul (.mul (.num 4 1) (.var 0)) (.add (.num 2 1) (.var 0))))) (.add (.num 1 1) (.var 0)))) (.add (.num 1 1) (.mul (.num 2 1) (.var 0))),
  .mul (.sqrt (.div (.num 1 1) (.add (.neg (.num 1 1)) (.mul (.num 2 1) (.var 1))))) (.sqrt (.add (.neg (.num 1 1)) (.mul (.num 2 1) (.var 1)))),
  .mul (.sqrt (.div (.num 1 1) (.add (.neg (.var 1)) (.mul (.num 2 1) (.pow (.var 1) 2))))) (.sqrt (.sub (.num 1 1) (.div (.num 2 1) (.add (.num 1 1) (.mul (.num 2 1) (.var 1)))))),
  .div (.add (.mul (.var 1) (.add (.neg (.num 1 1)) (.mul (.num 2 1) (.var 1)))) (.mul (.sqrt (.add (.neg (.num 1 1)) (.mul (.num 4 1) (.pow (.var 1) 2)))) (.sqrt (.sub (.num 1 1) (.div (.num 2 1) (.add (.num 1 1) (.mul (.num 2 1) (.var 1)))))))) (.sqrt (.mul (.mul (.var 1) (.add (.num 1 1) (.var 1))) (.add (.neg (.num 1 1)) (.mul (.num 4 1) (.pow (.var 1) 2))))),
  .div (.num 1 1) (.sqrt (.mul (.add (.num 1 1) (.var 1)) (.add (.num 1 1) (.mul (.num 2 1) (.var 1))))),
  .div (.sqrt (.div (.mul (.var 1) (.add (.num 3 1) (.mul (.mul (.num 4 1) (.var 1)) (.add (.num 2 1) (.var 1))))) (.add (.num 1 1) (.var 1)))) (.add (.num 1 1) (.mul (.num 2 1) (.var 1))),
  .div (.num 1 1) (.add (.num 1 1) (.mul (.num 2 1) (.var 1))),
  .div (.num 1 1) (.add (.add (.add (.num 1 1) (.mul (.num 2 1) (.var 0))) (.mul (.num 2 1) (.var 1))) (.mul (.mul (.num 4 1) (.var 0)) (.var 1))),
  .div (.mul (.num 2 1) (.sqrt (.add (.var 0) (.pow (.var 0) 2)))) (.add (.add (.add (.num 1 1) (.mul (.num 2 1) (.var 0))) (.mul (.num 2 1) (.var 1))) (.mul (.mul (.num 4 1) (.var 0)) (.var 1))),
  .div (.mul (.num 2 1) (.sqrt (.add (.var 1) (.pow (.var 1) 2)))) (.add (.add (.add (.num 1 1) (.mul (.num 2 1) (.var 0))) (.mul (.num 2 1) (.var 1))) (.mul (.mul (.num 4 1) (.var 0)) (.var 1))),
  .div (.mul (.num 4 1) (.sqrt (.mul (.mul (.mul (.mul (.var 0) (.add (.num 1 1) (.var 0))) (.var 1)) (.add (.num 1 1) (.var 1))) (.add (.num 1 1) (.mul (.num 2 1) (.var 1)))))) (.mul (.add (.num 1 1) (.mul (.num 2 1) (.var 0))) (.hpow (.add (.num 1 1) (.mul (.num 2 1) (.var 1))) 1)),
  .div (.sqrt (.mul (.var 0) (.add (.num 3 1) (.mul (.mul (.num 4 1) (.var 0)) (.add (.num 2 1) (.var 0)))))) (.mul (.sqrt (.add (.num 1 1) (.var 0))) (.add (.num 1 1) (.mul (.num 2 1) (.var 0)))),
  .mul (.num 4 1) (.sqrt (.div (.mul (.mul (.mul (.var 0) (.add (.num 1 1) (.var 0))) (.var 1)) (.add (.num 1 1) (.var 1))) (.mul (.pow (.add (.num 1 1) (.mul (.num 2 1) (.var 0))) 2) (.pow (.add (.num 1 1) (.mul (.num 2 1) (.var 1))) 2)))),
  .div (.mul (.neg (.num 2 1)) (.sqrt (.add (.var 1) (.pow (.var 1) 2)))) (.add (.add (.add (.num 1 1) (.mul (.num 2 1) (.var 0))) (.mul (.num 2 1) (.var 1))) (.mul (.mul (.num 4 1) (.var 0)) (.var 1))),
  .div (.num 1 1) (.sub (.neg (.num 1 1)) (.mul (.num 2 1) (.var 0))),
  .mul (.add (.neg (.num 1 1)) (.mul (.num 2 1) (.var 0))) (.sqrt (.neg (.div (.add (.num 1 1) (.var 0)) (.sub (.var 0) (.mul (.num 4 1) (.pow (.var 0) 3)))))),
  .neg (.div (.num 1 1) (.sqrt (.mul (.var 0) (.add (.num 1 1) (.mul (.num 2 1) (.var 0)))))),
  .div (.mul (.var 0) (.add (.num 3 1) (.mul (.num 2 1) (.var 0)))) (.sqrt (.mul (.mul (.var 0) (.add (.num 1 1) (.var 0))) (.add (.num 3 1) (.mul (.mul (.num 4 1) (.var 0)) (.add (.num 2 1) (.var 0)))))),
  .neg (.div (.num 1 1) (.sqrt (.mul (.add (.num 1 1) (.var 0)) (.add (.num 1 1) (.mul (.num 2 1) (.var 0)))))),
  .div (.var 1) (.sqrt (.div (.mul (.mul (.var 1) (.add (.num 1 1) (.var 1))) (.add (.num 1 1) (.mul (.num 2 1) (.var 1)))) (.add (.num 3 1) (.mul (.num 2 1) (.var 1))))),
  .div (.mul (.num 4 1) (.sqrt (.div (.mul (.mul (.mul (.mul (.var 0) (.add (.num 1 1) (.var 0))) (.var 1)) (.add (.num 1 1) (.var 1))) (.add (.num 1 1) (.mul (.num 2 1) (.var 1)))) (.pow (.add (.num 1 1) (.mul (.num 2 1) (.var 0))) 2)))) (.hpow (.add (.num 1 1) (.mul (.num 2 1) (.var 1))) 1),
  .div (.mul (.mul (.num 2 1) (.add (.num 1 1) (.var 1))) (.add (.mul (.num 2 1) (.sqrt (.div (.mul (.var 1) (.add (.num 1 1) (.mul (.num 2 1) (.var 1)))) (.add (.add (.num 3 1) (.mul (.num 5 1) (.var 0))) (.mul (.num 2 1) (.pow (.var 0) 2)))))) (.sqrt (.div (.mul (.mul (.pow (.add (.num 1 1) (.mul (.num 2 1) (.var 0))) 2) (.var 1)) (.add (.num 1 1) (.mul (.num 2 1) (.var 1)))) (.add (.add (.num 3 1) (.mul (.num 5 1) (.var 0))) (.mul (.num 2 1) (.pow (.var 0) 2))))))) (.mul (.sqrt (.div (.mul (.add (.num 3 1) (.mul (.num 2 1) (.var 0))) (.add (.num 1 1) (.var 1))) (.add (.num 1 1) (.var 0)))) (.hpow (.add (.num 1 1) (.mul (.num 2 1) (.var 1))) 1)),
  .mul (.mul (.sqrt (.add (.neg (.div (.num 1 1) (.var 1))) (.var 1))) (.sqrt (.add (.neg (.num 1 1)) (.mul (.num 2 1) (.var 1))))) (.sqrt (.div (.num 1 1) (.add (.neg (.var 1)) (.mul (.num 2 1) (.pow (.var 1) 2))))),
  .mul (.add (.neg (.num 1 1)) (.mul (.num 2 1) (.var 1))) (.sqrt (.div (.num 1 1) (.add (.neg (.pow (.var 1) 2)) (.mul (.num 4 1) (.pow (.var 1) 4))))),
  .neg (.div (.num 1 1) (.var 1)),
  .add (.sub (.num 1 1) (.div (.num 1 1) (.var 1))) (.div (.num 1 1) (.add (.num 1 1) (.var 1))),
  .div (.num 1 1) (.add (.num 1 1) (.var 1)),
  .neg (.div (.add (.num 3 1) (.mul (.num 2 1) (.var 1))) (.mul (.add (.num 1 1) (.var 1)) (.sqrt (.add (.num 3 1) (.mul (.mul (.num 4 1) (.var 1)) (.add (.num 2 1) (.var 1))))))),
  .div (.sqrt (.mul (.var 1) (.add (.num 2 1) (.var 1)))) (.add (.num 1 1) (.var 1)),
  .sqrt (.add (.sub (.num 1 1) (.div (.num 1 1) (.var 1))) (.div (.num 2 1) (.add (.num 1 1) (.mul (.num 2 1) (.var 1))))),
  .add (.add (.mul (.num 2 1) (.sqrt (.div (.var 1) (.add (.add (.add (.num 3 1) (.mul (.num 11 1) (.var 1))) (.mul (.num 12 1) (.pow (.var 1) 2))) (.mul (.num 4 1) (.pow (.var 1) 3)))))) (.sqrt (.div (.var 1) (.mul (.pow (.add (.num 1 1) (.var 1)) 3) (.add (.num 3 1) (.mul (.mul (.num 4 1) (.var 1)) (.add (.num 2 1) (.var 1)))))))) (.mul (.mul (.var 1) (.add (.num 3 1) (.mul (.num 2 1) (.var 1)))) (.sqrt (.div (.var 1) (.mul (.pow (.add (.num 1 1) (.var 1)) 3) (.add (.num 3 1) (.mul (.mul (.num 4 1) (.var 1)) (.add (.num 2 1) (.var 1)))))))),
  .div (.num 1 1) (.mul (.add (.num 1 1) (.mul (.num 2 1) (.var 1))) (.sqrt (.div (.num 1 1) (.add (.neg (.num 3 1)) (.mul (.mul (.num 4 1) (.var 1)) (.add (.num 1 1) (.var 1))))))),
  .neg (.div (.sqrt (.add (.num 3 1) (.mul (.mul (.num 4 1) (.var 1)) (.add (.num 2 1) (.var 1))))) (.mul (.add (.num 1 1) (.var 1)) (.add (.num 1 1) (.mul (.num 2 1) (.var 1))))),
  .div (.num 1 1) (.add (.add (.num 1 1) (.mul (.num 3 1) (.var 1))) (.mul (.num 2 1) (.pow (.var 1) 2))),
  .neg (.div (.num 1 1) (.add (.num 1 1) (.var 1))),
  .div (.mul (.var 1) (.add (.num 3 1) (.mul (.num 2 1) (.var 1)))) (.sqrt (.mul (.mul (.mul (.var 1) (.add (.num 1 1) (.var 1))) (.add (.num 1 1) (.mul (.num 2 1) (.var 1)))) (.add (.num 3 1) (.mul (.num 2 1) (.var 1))))),
  .sqrt (.sub (.add (.num 1 1) (.div (.num 1 1) (.add (.num 1 1) (.var 1)))) (.div (.num 2 1) (.add (.num 1 1) (.mul (.num 2 1) (.var 1))))),
  .mul (.sqrt (.sub (.num 2 1) (.div (.num 1 1) (.var 1)))) (.sqrt (.div (.num 1 1) (.add (.neg (.var 1)) (.mul (.num 2 1) (.pow (.var 1) 2))))),
  .mul (.sqrt (.div (.add (.neg (.num 1 1)) (.mul (.num 2 1) (.var 1))) (.add (.var 1) (.mul (.num 2 1) (.pow (.var 1) 2))))) (.sqrt (.div (.num 1 1) (.add (.neg (.var 1)) (.mul (.num 4 1) (.pow (.var 1) 3))))),
  .div (.sqrt (.add (.neg (.num 1 1)) (.pow (.var 1) 2))) (.var 1),
  .sqrt (.div (.add (.neg (.num 1 1)) (.mul (.num 2 1) (.var 1))) (.mul (.pow (.var 1) 2) (.add (.num 1 1) (.mul (.num 2 1) (.var 1))))),
  .div (.sqrt (.add (.neg (.num 3 1)) (.mul (.mul (.num 4 1) (.var 1)) (.add (.num 1 1) (.var 1))))) (.add (.num 1 1) (.mul (.num 2 1) (.var 1))),
  .mul (.sqrt (.mul (.var 1) (.add (.neg (.num 1 1)) (.mul (.num 2 1) (.var 1))))) (.sqrt (.div (.num 1 1) (.add (.neg (.pow (.var 1) 2)) (.mul (.num 4 1) (.pow (.var 1) 4))))),
  .mul (.sqrt (.div (.num 1 1) (.add (.neg (.num 1 1)) (.mul (.num 4 1) (.pow (.var 1) 2))))) (.sqrt (.add (.neg (.num 1 1)) (.mul (.num 4 1) (.pow (.var 1) 2)))),
  .mul (.sqrt (.add (.neg (.num 1 1)) (.mul (.num 2 1) (.var 1)))) (.sqrt (.div (.num 1 1) (.add (.neg (.var 1)) (.mul (.num 4 1) (.pow (.var 1) 3))))),
  .div (.mul (.sqrt (.add (.add (.sub (.neg (.num 1 1)) (.div (.num 1 1) (.var 1))) (.mul (.num 4 1) (.var 1))) (.mul (.num 4 1) (.pow (.var 1) 2)))) (.add (.num 1 1) (.mul (.sqrt (.neg (.div (.num 1 1) (.sub (.sub (.add (.var 1) (.pow (.var 1) 2)) (.mul (.num 4 1) (.pow (.var 1) 3))) (.mul (.num 4 1) (.pow (.var 1) 4)))))) (.add (.mul (.hpow (.var 1) 1) (.sqrt (.div (.add (.neg (.num 1 1)) (.mul (.num 2 1) (.var 1))) (.add (.add (.num 1 1) (.mul (.num 3 1) (.var 1))) (.mul (.num 2 1) (.pow (.var 1) 2)))))) (.sqrt (.div (.mul (.var 1) (.add (.neg (.num 1 1)) (.mul (.num 2 1) (.var 1)))) (.add (.add (.num 1 1) (.mul (.num 3 1) (.var 1))) (.mul (.num 2 1) (.pow (.var 1) 2))))))))) (.mul (.num 2 1) (.add (.num 1 1) (.var 1))),
  .div (.mul (.sqrt (.div (.add (.neg (.num 1 1)) (.mul (.num 4 1) (.pow (.var 1) 2))) (.add (.var 1) (.pow (.var 1) 2)))) (.add (.num 1 1) (.mul (.sqrt (.neg (.div (.num 1 1) (.sub (.sub (.add (.var 1) (.pow (.var 1) 2)) (.mul (.num 4 1) (.pow (.var 1) 3))) (.mul (.num 4 1) (.pow (.var 1) 4)))))) (.add (.mul (.hpow (.var 1) 1) (.sqrt (.div (.add (.neg (.num 1 1)) (.mul (.num 2 1) (.var 1))) (.add (.add (.num 1 1) (.mul (.num 3 1) (.var 1))) (.mul (.num 2 1) (.pow (.var 1) 2)))))) (.sqrt (.div (.mul (.var 1) (.add (.neg (.num 1 1)) (.mul (.num 2 1) (.var 1)))) (.add (.add (.num 1 1) (.mul (.num 3 1) (.var 1))) (.mul (.num 2 1) (.pow (.var 1) 2))))))))) (.num 2 1)]

/-- The factors of class `ISO2LR`. -/
def factors_ISO2LR : List Ex := [
  .num 1 1,
  .div (.num 1 1) (.sqrt (.div (.mul (.var 1) (.add (.num 1 1) (.mul (.num 2 1) (.var 1)))) (.add (.add (.neg (.num 1 1)) (.var 1)) (.mul (.num 2 1) (.pow (.var 1) 2))))),
  .neg (.div (.num 1 1) (.sqrt (.mul (.var 1) (.add (.num 1 1) (.mul (.num 2 1) (.var 1)))))),
  .div (.mul (.var 1) (.add (.num 3 1) (.mul (.num 2 1) (.var 1)))) (.sqrt (.mul (.mul (.var 1) (.add (.num 1 1) (.var 1))) (.add (.num 3 1) (.mul (.mul (.num 4 1) (.var 1)) (.add (.num 2 1) (.var 1)))))),
  .neg (.div (.num 1 1) (.sqrt (.mul (.add (.num 1 1) (.var 1)) (.add (.num 1 1) (.mul (.num 2 1) (.var 1)))))),
  .div (.mul (.neg (.num 2 1)) (.sqrt (.mul (.var 1) (.add (.num 1 1) (.var 1))))) (.add (.num 1 1) (.mul (.num 2 1) (.var 1))),
  .div (.mul (.neg (.num 2 1)) (.sqrt (.mul (.var 1) (.add (.num 1 1) (.var 1))))) (.add (.add (.add (.num 1 1) (.mul (.num 2 1) (.var 0))) (.mul (.num 2 1) (.var 1))) (.mul (.mul (.num 4 1) (.var 0)) (.var 1))),
  .div (.mul (.neg (.num 4 1)) (.sqrt (.mul (.mul (.mul (.var 0) (.add (.num 1 1) (.var 0))) (.var 1)) (.add (.num 1 1) (.var 1))))) (.add (.add (.add (.num 1 1) (.mul (.num 2 1) (.var 0))) (.mul (.num 2 1) (.var 1))) (.mul (.mul (.num 4 1) (.var 0)) (.var 1))),
  .div (.num 1 1) (.add (.num 1 1) (.mul (.num 2 1) (.var 1))),
  .div (.num 1 1) (.add (.add (.add (.num 1 1) (.mul (.num 2 1) (.var 0))) (.mul (.num 2 1) (.var 1))) (.mul (.mul (.num 4 1) (.var 0)) (.var 1))),
  .neg (.num 1 1),
  .div (.num 1 1) (.sub (.neg (.num 1 1)) (.mul (.num 2 1) (.var 0))),
  .div (.mul (.num 2 1) (.sqrt (.mul (.var 0) (.add (.num 1 1) (.var 0))))) (.add (.add (.add (.num 1 1) (.mul (.num 2 1) (.var 0))) (.mul (.num 2 1) (.var 1))) (.mul (.mul (.num 4 1) (.var 0)) (.var 1))),
  .div (.mul (.neg (.num 2 1)) (.sqrt (.mul (.var 0) (.add (.num 1 1) (.var 0))))) (.add (.num 1 1) (.mul (.num 2 1) (.var 0))),
  .mul (.sqrt (.div (.num 1 1) (.add (.neg (.num 1 1)) (.mul (.num 2 1) (.var 0))))) (.sqrt (.add (.neg (.num 1 1)) (.mul (.num 2 1) (.var 0)))),
  .mul (.sqrt (.div (.num 1 1) (.mul (.var 0) (.add (.neg (.num 1 1)) (.mul (.num 2 1) (.var 0)))))) (.sqrt (.sub (.num 1 1) (.div (.num 2 1) (.add (.num 1 1) (.mul (.num 2 1) (.var 0)))))),
  .div (.add (.mul (.var 0) (.add (.neg (.num 1 1)) (.mul (.num 2 1) (.var 0)))) (.mul (.sqrt (.add (.neg (.num 1 1)) (.mul (.num 4 1) (.pow (.var 0) 2)))) (.sqrt (.sub (.num 1 1) (.div (.num 2 1) (.add (.num 1 1) (.mul (.num 2 1) (.var 0)))))))) (.sqrt (.mul (.mul (.var 0) (.add (.num 1 1) (.var 0))) (.add (.neg (.num 1 1)) (.mul (.num 4 1) (.pow (.var 0) 2))))),
  .div (.num 1 1) (.sqrt (.mul (.add (.num 1 1) (.var 0)) (.add (.num 1 1) (.mul (.num 2 1) (.var 0))))),
  .sqrt (.sub (.add (.num 1 1) (.div (.num 1 1) (.add (.num 1 1) (.var 0)))) (.div (.num 2 1) (.add (.num 1 1) (.mul (.num 2 1) (.var 0))))),
  .mul (.sqrt (.div (.num 1 1) (.add (.neg (.num 1 1)) (.mul (.num 2 1) (.var 1))))) (.sqrt (.add (.neg (.num 1 1)) (.mul (.num 2 1) (.var 1)))),
  .mul (.sqrt (.div (.num 1 1) (.mul (.var 1) (.add (.neg (.num 1 1)) (.mul (.num 2 1) (.var 1)))))) (.sqrt (.sub (.num 1 1) (.div (.num 2 1) (.add (.num 1 1) (.mul (.num 2 1) (.var 1)))))),
  .div (.add (.mul (.var 1) (.add (.neg (.num 1 1)) (.mul (.num 2 1) (.var 1)))) (.mul (.sqrt (.add (.neg (.num 1 1)) (.mul (.num 4 1) (.pow (.var 1) 2)))) (.sqrt (.sub (.num 1 1) (.div (.num 2 1) (.add (.num 1 1) (.mul (.num 2 1) (.var 1)))))))) (.sqrt (.mul (.mul (.var 1) (.add (.num 1 1) (.var 1))) (.add (.neg (.num 1 1)) (.mul (.num 4 1) (.pow (.var 1) 2))))),
  .div (.num 1 1) (.sqrt (.mul (.add (.num 1 1) (.var 1)) (.add (.num 1 1) (.mul (.num 2 1) (.var 1))))),
  .sqrt (.sub (.add (.num 1 1) (.div (.num 1 1) (.add (.num 1 1) (.var 1)))) (.div (.num 2 1) (.add (.num 1 1) (.mul (.num 2 1) (.var 1))))),
  .neg (.mul (.sqrt (.div (.num 1 1) (.add (.neg (.num 1 1)) (.mul (.num 2 1) (.var 1))))) (.sqrt (.add (.neg (.num 1 1)) (.mul (.num 2 1) (.var 1))))),
  .neg (.div (.mul (.sqrt (.div (.num 1 1) (.add (.neg (.num 1 1)) (.mul (.num 2 1) (.var 1))))) (.sqrt (.add (.neg (.num 1 1)) (.mul (.num 2 1) (.var 1))))) (.add (.num 1 1) (.mul (.num 2 1) (.var 0)))),
  .div (.num 1 1) (.sub (.neg (.num 1 1)) (.mul (.num 2 1) (.var 1))),
  .neg (.div (.num 1 1) (.add (.add (.add (.num 1 1) (.mul (.num 2 1) (.var 0))) (.mul (.num 2 1) (.var 1))) (.mul (.mul (.num 4 1) (.var 0)) (.var 1)))),
  .div (.mul (.mul (.neg (.num 2 1)) (.sqrt (.div (.var 0) (.add (.neg (.num 1 1)) (.mul (.num 2 1) (.var 1)))))) (.sqrt (.mul (.add (.num 1 1) (.var 0)) (.add (.neg (.num 1 1)) (.mul (.num 2 1) (.var 1)))))) (.add (.num 1 1) (.mul (.num 2 1) (.var 0))),
  .div (.mul (.neg (.num 2 1)) (.sqrt (.mul (.var 0) (.add (.num 1 1) (.var 0))))) (.add (.add (.add (.num 1 1) (.mul (.num 2 1) (.var 0))) (.mul (.num 2 1) (.var 1))) (.mul (.mul (.num 4 1) (.var 0)) (.var 1))),
  .div (.mul (.num 2 1) (.sqrt (.mul (.var 1) (.add (.num 1 1) (.var 1))))) (.add (.add (.add (.num 1 1) (.mul (.num 2 1) (.var 0))) (.mul (.num 2 1) (.var 1))) (.mul (.mul (.num 4 1) (.var 0)) (.var 1))),
  .div (.num 1 1) (.add (.num 1 1) (.mul (.num 2 1) (.var 0))),
  .div (.num 1 1) (.sqrt (.div (.mul (.var 0) (.add (.num 1 1) (.mul (.num 2 1) (.var 0)))) (.add (.add (.neg (.num 1 1)) (.var 0)) (.mul (.num 2 1) (.pow (.var 0) 2))))),
  .neg (.div (.num 1 1) (.sqrt (.mul (.var 0) (.add (.num 1 1) (.mul (.num 2 1) (.var 0)))))),
  .div (.mul (.var 0) (.add (.num 3 1) (.mul (.num 2 1) (.var 0)))) (.sqrt (.mul (.mul (.var 0) (.add (.num 1 1) (.var 0))) (.add (.num 3 1) (.mul (.mul (.num 4 1) (.var 0)) (.add (.num 2 1) (.var 0)))))),
  .neg (.div (.num 1 1) (.sqrt (.mul (.add (.num 1 1) (.var 0)) (.add (.num 1 1) (.mul (.num 2 1) (.var 0)))))),
  .mul (.mul (.neg (.num 2 1)) (.sqrt (.div (.mul (.var 0) (.add (.num 1 1) (.var 0))) (.mul (.pow (.add (.num 1 1) (.mul (.num 2 1) (.var 0))) 2) (.add (.neg (.num 1 1)) (.mul (.num 2 1) (.var 1))))))) (.sqrt (.add (.neg (.num 1 1)) (.mul (.num 2 1) (.var 1)))),
  .div (.mul (.sqrt (.div (.num 1 1) (.add (.neg (.num 1 1)) (.mul (.num 2 1) (.var 1))))) (.sqrt (.add (.neg (.num 1 1)) (.mul (.num 2 1) (.var 1))))) (.add (.num 1 1) (.mul (.num 2 1) (.var 0))),
  .neg (.mul (.sqrt (.div (.mul (.mul (.add (.num 1 1) (.var 0)) (.var 1)) (.add (.neg (.num 1 1)) (.mul (.num 2 1) (.var 1)))) (.add (.num 3 1) (.mul (.num 2 1) (.var 0))))) (.add (.mul (.num 2 1) (.sqrt (.div (.num 1 1) (.mul (.mul (.add (.add (.num 3 1) (.mul (.num 5 1) (.var 0))) (.mul (.num 2 1) (.pow (.var 0) 2))) (.var 1)) (.add (.neg (.num 1 1)) (.mul (.num 2 1) (.var 1))))))) (.sqrt (.div (.pow (.add (.num 1 1) (.mul (.num 2 1) (.var 0))) 2) (.mul (.mul (.add (.add (.num 3 1) (.mul (.num 5 1) (.var 0))) (.mul (.num 2 1) (.pow (.var 0) 2))) (.var 1)) (.add (.neg (.num 1 1)) (.mul (.num 2 1) (.var 1)))))))),
  .div (.mul (.mul (.sqrt (.div (.num 1 1) (.add (.neg (.num 1 1)) (.mul (.num 2 1) (.var 1))))) (.sqrt (.add (.neg (.num 1 1)) (.mul (.num 2 1) (.var 1))))) (.sqrt (.add (.neg (.num 1 1)) (.pow (.var 1) 2)))) (.var 1),
  .div (.mul (.add (.neg (.num 1 1)) (.mul (.num 2 1) (.var 1))) (.sqrt (.div (.num 1 1) (.add (.neg (.num 1 1)) (.mul (.num 4 1) (.pow (.var 1) 2)))))) (.var 1),
  .neg (.div (.num 1 1) (.var 1)),
  .add (.sub (.num 1 1) (.div (.num 1 1) (.var 1))) (.div (.num 1 1) (.add (.num 1 1) (.var 1))),
  .div (.num 1 1) (.add (.num 1 1) (.var 1)),
  .neg (.div (.sqrt (.add (.num 1 1) (.div (.num 2 1) (.add (.num 1 1) (.mul (.num 2 1) (.var 1)))))) (.add (.num 1 1) (.var 1))),
  .div (.sqrt (.mul (.var 1) (.add (.num 2 1) (.var 1)))) (.add (.num 1 1) (.var 1)),
  .sqrt (.add (.sub (.num 1 1) (.div (.num 1 1) (.var 1))) (.div (.num 2 1) (.add (.num 1 1) (.mul (.num 2 1) (.var 1))))),
  .add (.add (.add (.mul (.num 2 1) (.sqrt (.div (.var 1) (.add (.add (.add (.num 3 1) (.mul (.num 11 1) (.var 1))) (.mul (.num 12 1) (.pow (.var 1) 2))) (.mul (.num 4 1) (.pow (.var 1) 3)))))) (.sqrt (.div (.var 1) (.mul (.pow (.add (.num 1 1) (.var 1)) 3) (.add (.num 3 1) (.mul (.mul (.num 4 1) (.var 1)) (.add (.num 2 1) (.var 1)))))))) (.mul (.mul (.num 3 1) (.var 1)) (.sqrt (.div (.var 1) (.mul (.pow (.add (.num 1 1) (.var 1)) 3) (.add (.num 3 1) (.mul (.mul (.num 4 1) (.var 1)) (.add (.num 2 1) (.var 1))))))))) (.mul (.num 2 1) (.sqrt (.div (.pow (.var 1) 5) (.mul (.pow (.add (.num 1 1) (.var 1)) 3) (.add (.num 3 1) (.mul (.mul (.num 4 1) (.var 1)) (.add (.num 2 1) (.var 1)))))))),
  .div (.num 1 1) (.mul (.add (.num 1 1) (.mul (.num 2 1) (.var 1))) (.sqrt (.div (.num 1 1) (.add (.neg (.num 3 1)) (.mul (.mul (.num 4 1) (.var 1)) (.add (.num 1 1) (.var 1))))))),
  .neg (.div (.sqrt (.add (.num 3 1) (.mul (.mul (.num 4 1) (.var 1)) (.add (.num 2 1) (.var 1))))) (.mul (.add (.num 1 1) (.var 1)) (.add (.num 1 1) (.mul (.num 2 1) (.var 1))))),
  .div (.num 1 1) (.add (.add (.num 1 1) (.mul (.num 3 1) (.var 1))) (.mul (.num 2 1) (.pow (.var 1) 2))),
  .neg (.div (.num 1 1) (.add (.num 1 1) (.var 1))),
  .div (.sqrt (.div (.mul (.mul (.var 1) (.add (.num 1 1) (.var 1))) (.add (.num 3 1) (.mul (.num 2 1) (.var 1)))) (.add (.num 1 1) (.mul (.num 2 1) (.var 1))))) (.add (.num 1 1) (.var 1)),
  .div (.mul (.sqrt (.div (.num 1 1) (.add (.neg (.num 1 1)) (.mul (.num 2 1) (.var 1))))) (.sqrt (.add (.neg (.num 1 1)) (.mul (.num 2 1) (.var 1))))) (.var 1),
  .div (.mul (.sqrt (.div (.num 1 1) (.add (.neg (.num 1 1)) (.mul (.num 4 1) (.pow (.var 1) 2))))) (.sqrt (.sub (.num 1 1) (.div (.num 2 1) (.add (.num 1 1) (.mul (.num 2 1) (.var 1))))))) (.var 1),
  .div (.sqrt (.add (.neg (.num 1 1)) (.pow (.var 1) 2))) (.var 1),
  .sqrt (.div (.add (.neg (.num 1 1)) (.mul (.num 2 1) (.var 1))) (.mul (.pow (.var 1) 2) (.add (.num 1 1) (.mul (.num 2 1) (.var 1))))),
  .div (.sqrt (.add (.neg (.num 3 1)) (.mul (.mul (.num 4 1) (.var 1)) (.add (.num 1 1) (.var 1))))) (.add (.num 1 1) (.mul (.num 2 1) (.var 1))),
  .mul (.sqrt (.div (.num 1 1) (.add (.neg (.num 1 1)) (.var 1)))) (.sqrt (.add (.neg (.num 1 1)) (.var 1))),
  .mul (.sqrt (.sub (.num 2 1) (.div (.num 1 1) (.var 1)))) (.sqrt (.div (.num 1 1) (.add (.neg (.num 1 1)) (.mul (.num 4 1) (.pow (.var 1) 2))))),
  .div (.mul (.sqrt (.sub (.sub (.num 4 1) (.div (.num 1 1) (.var 1))) (.div (.num 3 1) (.add (.num 1 1) (.var 1))))) (.add (.add (.num 1 1) (.mul (.sqrt (.div (.add (.neg (.num 1 1)) (.mul (.num 2 1) (.var 1))) (.add (.add (.num 1 1) (.mul (.num 3 1) (.var 1))) (.mul (.num 2 1) (.pow (.var 1) 2))))) (.sqrt (.div (.num 1 1) (.add (.add (.sub (.neg (.num 1 1)) (.var 1)) (.mul (.num 4 1) (.pow (.var 1) 2))) (.mul (.num 4 1) (.pow (.var 1) 3))))))) (.mul (.mul (.var 1) (.sqrt (.div (.add (.neg (.num 1 1)) (.mul (.num 2 1) (.var 1))) (.add (.add (.num 1 1) (.mul (.num 3 1) (.var 1))) (.mul (.num 2 1) (.pow (.var 1) 2)))))) (.sqrt (.div (.num 1 1) (.add (.add (.sub (.neg (.num 1 1)) (.var 1)) (.mul (.num 4 1) (.pow (.var 1) 2))) (.mul (.num 4 1) (.pow (.var 1) 3)))))))) (.num 2 1),
  .div (.mul (.sqrt (.div (.add (.neg (.div (.num 1 1) (.var 1))) (.mul (.num 4 1) (.var 1))) (.add (.num 1 1) (.var 1)))) (.add (.add (.num 1 1) (.mul (.sqrt (.div (.add (.neg (.num 1 1)) (.mul (.num 2 1) (.var 1))) (.add (.add (.num 1 1) (.mul (.num 3 1) (.var 1))) (.mul (.num 2 1) (.pow (.var 1) 2))))) (.sqrt (.div (.num 1 1) (.add (.add (.sub (.neg (.num 1 1)) (.var 1)) (.mul (.num 4 1) (.pow (.var 1) 2))) (.mul (.num 4 1) (.pow (.var 1) 3))))))) (.mul (.mul (.var 1) (.sqrt (.div (.add (.neg (.num 1 1)) (.mul (.num 2 1) (.var 1))) (.add (.add (.num 1 1) (.mul (.num 3 1) (.var 1))) (.mul (.num 2 1) (.pow (.var 1) 2)))))) (.sqrt (.div (.num 1 1) (.add (.add (.sub (.neg (.num 1 1)) (.var 1)) (.mul (.num 4 1) (.pow (.var 1) 2))) (.mul (.num 4 1) (.pow (.var 1) 3)))))))) (.num 2 1)]

/-- The factors of class `ISOSZ`. -/
def factors_ISOSZ : List Ex := [
  .num 1 1,
  .div (.num 1 1) (.add (.num 1 1) (.mul (.num 2 1) (.var 0))),
  .div (.mul (.num 2 1) (.sqrt (.mul (.var 0) (.add (.num 1 1) (.var 0))))) (.add (.num 1 1) (.mul (.num 2 1) (.var 0))),
  .neg (.num 1 1),
  .div (.num 1 1) (.sub (.neg (.num 1 1)) (.mul (.num 2 1) (.var 0))),
  .div (.num 1 1) (.sqrt (.mul (.var 0) (.add (.num 1 1) (.mul (.num 2 1) (.var 0))))),
  .div (.add (.add (.neg (.num 1 1)) (.var 0)) (.mul (.num 2 1) (.pow (.var 0) 2))) (.sqrt (.mul (.mul (.mul (.var 0) (.add (.num 1 1) (.var 0))) (.add (.neg (.num 1 1)) (.mul (.num 2 1) (.var 0)))) (.add (.num 1 1) (.mul (.num 2 1) (.var 0))))),
  .div (.num 1 1) (.sqrt (.mul (.add (.num 1 1) (.var 0)) (.add (.num 1 1) (.mul (.num 2 1) (.var 0))))),
  .add (.add (.sqrt (.div (.mul (.var 0) (.add (.num 1 1) (.mul (.num 2 1) (.var 0)))) (.mul (.pow (.add (.num 1 1) (.var 0)) 3) (.add (.num 3 1) (.mul (.num 2 1) (.var 0)))))) (.sqrt (.div (.var 0) (.mul (.pow (.add (.num 1 1) (.var 0)) 3) (.add (.num 3 1) (.mul (.mul (.num 4 1) (.var 0)) (.add (.num 2 1) (.var 0)))))))) (.sqrt (.sub (.add (.num 1 1) (.div (.num 1 1) (.add (.num 1 1) (.var 0)))) (.div (.num 6 1) (.add (.num 3 1) (.mul (.num 2 1) (.var 0)))))),
  .div (.mul (.neg (.num 2 1)) (.sqrt (.mul (.var 0) (.add (.num 1 1) (.var 0))))) (.add (.num 1 1) (.mul (.num 2 1) (.var 0))),
  .div (.num 1 1) (.sqrt (.div (.mul (.var 0) (.add (.num 1 1) (.mul (.num 2 1) (.var 0)))) (.add (.add (.neg (.num 1 1)) (.var 0)) (.mul (.num 2 1) (.pow (.var 0) 2))))),
  .neg (.div (.num 1 1) (.sqrt (.mul (.var 0) (.add (.num 1 1) (.mul (.num 2 1) (.var 0)))))),
  .div (.add (.mul (.num 3 1) (.sqrt (.mul (.var 0) (.add (.num 3 1) (.mul (.mul (.num 4 1) (.var 0)) (.add (.num 2 1) (.var 0))))))) (.mul (.num 2 1) (.sqrt (.mul (.pow (.var 0) 3) (.add (.num 3 1) (.mul (.mul (.num 4 1) (.var 0)) (.add (.num 2 1) (.var 0)))))))) (.mul (.sqrt (.add (.num 1 1) (.var 0))) (.add (.num 3 1) (.mul (.mul (.num 4 1) (.var 0)) (.add (.num 2 1) (.var 0))))),
  .neg (.div (.num 1 1) (.sqrt (.mul (.add (.num 1 1) (.var 0)) (.add (.num 1 1) (.mul (.num 2 1) (.var 0))))))]

/-- The factors of class `ISOSZLR`. -/
def factors_ISOSZLR : List Ex := [
  .num 1 1,
  .neg (.num 1 1),
  .div (.num 1 1) (.sub (.neg (.num 1 1)) (.mul (.num 2 1) (.var 0))),
  .div (.mul (.neg (.num 2 1)) (.sqrt (.mul (.var 0) (.add (.num 1 1) (.var 0))))) (.add (.num 1 1) (.mul (.num 2 1) (.var 0))),
  .div (.num 1 1) (.sqrt (.mul (.var 0) (.add (.num 1 1) (.mul (.num 2 1) (.var 0))))),
  .div (.add (.add (.neg (.num 1 1)) (.var 0)) (.mul (.num 2 1) (.pow (.var 0) 2))) (.sqrt (.mul (.mul (.var 0) (.add (.num 1 1) (.var 0))) (.add (.neg (.num 1 1)) (.mul (.num 4 1) (.pow (.var 0) 2))))),
  .div (.num 1 1) (.sqrt (.mul (.add (.num 1 1) (.var 0)) (.add (.num 1 1) (.mul (.num 2 1) (.var 0))))),
  .sqrt (.sub (.add (.num 1 1) (.div (.num 1 1) (.add (.num 1 1) (.var 0)))) (.div (.num 2 1) (.add (.num 1 1) (.mul (.num 2 1) (.var 0))))),
  .div (.num 1 1) (.add (.num 1 1) (.mul (.num 2 1) (.var 0))),
  .div (.num 1 1) (.sqrt (.div (.mul (.var 0) (.add (.num 1 1) (.mul (.num 2 1) (.var 0)))) (.add (.add (.neg (.num 1 1)) (.var 0)) (.mul (.num 2 1) (.pow (.var 0) 2))))),
  .neg (.div (.num 1 1) (.sqrt (.mul (.var 0) (.add (.num 1 1) (.mul (.num 2 1) (.var 0)))))),
  .div (.mul (.var 0) (.add (.num 3 1) (.mul (.num 2 1) (.var 0)))) (.sqrt (.mul (.mul (.var 0) (.add (.num 1 1) (.var 0))) (.add (.num 3 1) (.mul (.mul (.num 4 1) (.var 0)) (.add (.num 2 1) (.var 0)))))),
  .neg (.div (.num 1 1) (.sqrt (.mul (.add (.num 1 1) (.var 0)) (.add (.num 1 1) (.mul (.num 2 1) (.var 0))))))]

/-- The factors of class `NONE`. -/
def factors_NONE : List Ex := [
  .num 1 1,
  .neg (.num 1 1)]

/-- The factors of class `P`. -/
def factors_P : List Ex := [
  .num 1 1]

/-- The factors of class `QS`. -/
def factors_QS : List Ex := [
  .num 1 1,
  .div (.mul (.neg (.num 2 1)) (.sqrt (.mul (.var 1) (.add (.num 1 1) (.var 1))))) (.add (.num 1 1) (.mul (.num 2 1) (.var 1))),
  .div (.num 1 1) (.add (.num 1 1) (.mul (.num 2 1) (.var 1))),
  .neg (.num 1 1),
  .div (.num 1 1) (.sub (.neg (.num 1 1)) (.mul (.num 2 1) (.var 1))),
  .div (.num 1 1) (.sqrt (.div (.mul (.var 1) (.add (.num 1 1) (.mul (.num 2 1) (.var 1)))) (.add (.add (.neg (.num 1 1)) (.var 1)) (.mul (.num 2 1) (.pow (.var 1) 2))))),
  .neg (.div (.num 1 1) (.sqrt (.mul (.var 1) (.add (.num 1 1) (.mul (.num 2 1) (.var 1)))))),
  .div (.sqrt (.div (.mul (.var 1) (.add (.num 3 1) (.mul (.mul (.num 4 1) (.var 1)) (.add (.num 2 1) (.var 1))))) (.add (.num 1 1) (.var 1)))) (.add (.num 1 1) (.mul (.num 2 1) (.var 1))),
  .neg (.div (.num 1 1) (.sqrt (.mul (.add (.num 1 1) (.var 1)) (.add (.num 1 1) (.mul (.num 2 1) (.var 1)))))),
  .div (.num 1 1) (.sqrt (.mul (.var 1) (.add (.num 1 1) (.mul (.num 2 1) (.var 1))))),
  .div (.num 1 1) (.sqrt (.mul (.add (.num 1 1) (.var 1)) (.add (.num 1 1) (.mul (.num 2 1) (.var 1))))),
  .div (.mul (.add (.num 3 1) (.mul (.num 2 1) (.var 1))) (.sqrt (.div (.mul (.var 1) (.add (.num 1 1) (.var 1))) (.add (.num 3 1) (.mul (.mul (.num 4 1) (.var 1)) (.add (.num 2 1) (.var 1))))))) (.add (.num 1 1) (.var 1)),
  .mul (.neg (.num 2 1)) (.sqrt (.div (.add (.neg (.num 1 1)) (.pow (.var 1) 2)) (.add (.neg (.num 1 1)) (.mul (.num 4 1) (.pow (.var 1) 2))))),
  .div (.sqrt (.num 3 1)) (.sqrt (.add (.neg (.num 1 1)) (.mul (.num 4 1) (.pow (.var 1) 2)))),
  .neg (.div (.sqrt (.add (.neg (.num 3 1)) (.mul (.mul (.num 4 1) (.var 1)) (.add (.num 1 1) (.var 1))))) (.add (.num 1 1) (.mul (.num 2 1) (.var 1)))),
  .div (.num 2 1) (.add (.num 1 1) (.mul (.num 2 1) (.var 1))),
  .div (.mul (.mul (.neg (.num 2 1)) (.var 1)) (.add (.add (.mul (.neg (.num 3 1)) (.sqrt (.div (.mul (.add (.num 1 1) (.var 1)) (.add (.num 2 1) (.var 1))) (.add (.num 3 1) (.mul (.num 2 1) (.var 1)))))) (.mul (.num 7 1) (.sqrt (.mul (.mul (.add (.num 1 1) (.var 1)) (.add (.num 2 1) (.var 1))) (.add (.num 3 1) (.mul (.num 2 1) (.var 1))))))) (.mul (.var 1) (.add (.add (.mul (.neg (.num 5 1)) (.sqrt (.div (.mul (.add (.num 1 1) (.var 1)) (.add (.num 2 1) (.var 1))) (.add (.num 3 1) (.mul (.num 2 1) (.var 1)))))) (.mul (.mul (.mul (.num 4 1) (.var 1)) (.add (.num 1 1) (.var 1))) (.sqrt (.div (.mul (.add (.num 1 1) (.var 1)) (.add (.num 2 1) (.var 1))) (.add (.num 3 1) (.mul (.num 2 1) (.var 1))))))) (.mul (.num 8 1) (.sqrt (.mul (.mul (.add (.num 1 1) (.var 1)) (.add (.num 2 1) (.var 1))) (.add (.num 3 1) (.mul (.num 2 1) (.var 1)))))))))) (.mul (.mul (.add (.num 2 1) (.var 1)) (.sqrt (.mul (.mul (.var 1) (.add (.num 1 1) (.var 1))) (.add (.num 1 1) (.mul (.num 2 1) (.var 1)))))) (.pow (.add (.num 3 1) (.mul (.num 2 1) (.var 1))) 2)),
  .div (.sqrt (.num 3 1)) (.sqrt (.add (.num 3 1) (.mul (.mul (.num 4 1) (.var 1)) (.add (.num 2 1) (.var 1))))),
  .neg (.div (.sqrt (.num 3 1)) (.sqrt (.add (.neg (.num 1 1)) (.mul (.num 4 1) (.pow (.var 1) 2))))),
  .div (.mul (.neg (.num 2 1)) (.add (.neg (.num 1 1)) (.pow (.var 1) 2))) (.sqrt (.add (.sub (.num 1 1) (.mul (.num 5 1) (.pow (.var 1) 2))) (.mul (.num 4 1) (.pow (.var 1) 4)))),
  .div (.neg (.num 2 1)) (.add (.num 1 1) (.mul (.num 2 1) (.var 1))),
  .neg (.div (.mul (.sqrt (.num 3 1)) (.add (.add (.mul (.num 3 1) (.sqrt (.mul (.var 1) (.add (.num 1 1) (.var 1))))) (.mul (.num 5 1) (.sqrt (.mul (.pow (.var 1) 3) (.add (.num 1 1) (.var 1)))))) (.mul (.num 2 1) (.sqrt (.mul (.pow (.var 1) 5) (.add (.num 1 1) (.var 1))))))) (.sqrt (.mul (.mul (.var 1) (.add (.num 1 1) (.mul (.num 2 1) (.var 1)))) (.pow (.add (.add (.num 3 1) (.mul (.num 5 1) (.var 1))) (.mul (.num 2 1) (.pow (.var 1) 2))) 3)))),
  .mul (.mul (.neg (.num 2 1)) (.add (.num 2 1) (.var 1))) (.sqrt (.div (.var 1) (.add (.add (.add (.num 6 1) (.mul (.num 19 1) (.var 1))) (.mul (.num 16 1) (.pow (.var 1) 2))) (.mul (.num 4 1) (.pow (.var 1) 3))))),
  .sqrt (.div (.sub (.add (.num 3 1) (.var 1)) (.mul (.num 2 1) (.pow (.var 1) 2))) (.sub (.add (.num 1 1) (.var 1)) (.mul (.num 2 1) (.pow (.var 1) 2)))),
  .neg (.div (.sqrt (.num 2 1)) (.sqrt (.mul (.add (.neg (.num 1 1)) (.var 1)) (.add (.num 1 1) (.mul (.num 2 1) (.var 1)))))),
  .div (.add (.add (.neg (.num 3 1)) (.var 1)) (.mul (.num 2 1) (.pow (.var 1) 2))) (.sqrt (.mul (.mul (.mul (.add (.neg (.num 1 1)) (.var 1)) (.var 1)) (.add (.num 1 1) (.mul (.num 2 1) (.var 1)))) (.add (.num 3 1) (.mul (.num 2 1) (.var 1))))),
  .neg (.div (.sqrt (.num 3 1)) (.sqrt (.mul (.var 1) (.add (.num 1 1) (.mul (.num 2 1) (.var 1)))))),
  .div (.add (.neg (.num 1 1)) (.mul (.num 2 1) (.var 1))) (.sqrt (.div (.mul (.add (.num 1 1) (.mul (.num 2 1) (.var 1))) (.add (.add (.neg (.num 1 1)) (.var 1)) (.mul (.num 2 1) (.pow (.var 1) 2)))) (.add (.num 2 1) (.var 1)))),
  .neg (.div (.mul (.sqrt (.num 3 1)) (.add (.add (.mul (.num 6 1) (.sqrt (.mul (.mul (.mul (.var 1) (.add (.num 2 1) (.var 1))) (.add (.num 1 1) (.mul (.num 2 1) (.var 1)))) (.add (.num 3 1) (.mul (.num 2 1) (.var 1)))))) (.mul (.num 7 1) (.sqrt (.mul (.mul (.mul (.pow (.var 1) 3) (.add (.num 2 1) (.var 1))) (.add (.num 1 1) (.mul (.num 2 1) (.var 1)))) (.add (.num 3 1) (.mul (.num 2 1) (.var 1))))))) (.mul (.num 2 1) (.sqrt (.mul (.mul (.mul (.pow (.var 1) 5) (.add (.num 2 1) (.var 1))) (.add (.num 1 1) (.mul (.num 2 1) (.var 1)))) (.add (.num 3 1) (.mul (.num 2 1) (.var 1)))))))) (.mul (.mul (.sqrt (.mul (.var 1) (.add (.num 1 1) (.var 1)))) (.add (.num 1 1) (.mul (.num 2 1) (.var 1)))) (.hpow (.mul (.add (.num 2 1) (.var 1)) (.add (.num 3 1) (.mul (.num 2 1) (.var 1)))) 1))),
  .mul (.add (.num 5 1) (.mul (.num 2 1) (.var 1))) (.sqrt (.div (.var 1) (.add (.add (.add (.num 10 1) (.mul (.num 29 1) (.var 1))) (.mul (.num 20 1) (.pow (.var 1) 2))) (.mul (.num 4 1) (.pow (.var 1) 3))))),
  .neg (.div (.sqrt (.num 2 1)) (.sqrt (.mul (.add (.num 2 1) (.var 1)) (.add (.num 1 1) (.mul (.num 2 1) (.var 1)))))),
  .div (.sqrt (.num 2 1)) (.sqrt (.mul (.add (.neg (.num 1 1)) (.var 1)) (.add (.num 1 1) (.mul (.num 2 1) (.var 1))))),
  .div (.mul (.add (.num 1 1) (.var 1)) (.add (.neg (.num 3 1)) (.mul (.num 2 1) (.var 1)))) (.sqrt (.mul (.mul (.mul (.add (.neg (.num 1 1)) (.var 1)) (.add (.num 1 1) (.var 1))) (.add (.neg (.num 3 1)) (.mul (.num 2 1) (.var 1)))) (.add (.num 1 1) (.mul (.num 2 1) (.var 1))))),
  .div (.sqrt (.num 3 1)) (.sqrt (.mul (.var 1) (.add (.num 1 1) (.mul (.num 2 1) (.var 1))))),
  .div (.mul (.add (.neg (.num 1 1)) (.var 1)) (.add (.num 3 1) (.mul (.num 2 1) (.var 1)))) (.sqrt (.mul (.mul (.mul (.add (.neg (.num 1 1)) (.var 1)) (.var 1)) (.add (.num 1 1) (.mul (.num 2 1) (.var 1)))) (.add (.num 3 1) (.mul (.num 2 1) (.var 1))))),
  .div (.sqrt (.num 3 1)) (.sqrt (.mul (.add (.num 1 1) (.var 1)) (.add (.num 1 1) (.mul (.num 2 1) (.var 1))))),
  .div (.mul (.add (.num 2 1) (.var 1)) (.add (.neg (.num 1 1)) (.mul (.num 2 1) (.var 1)))) (.sqrt (.mul (.mul (.mul (.add (.num 1 1) (.var 1)) (.add (.num 2 1) (.var 1))) (.add (.neg (.num 1 1)) (.mul (.num 2 1) (.var 1)))) (.add (.num 1 1) (.mul (.num 2 1) (.var 1))))),
  .div (.mul (.sqrt (.num 2 1)) (.add (.add (.add (.mul (.num 6 1) (.sqrt (.mul (.mul (.var 1) (.add (.num 1 1) (.var 1))) (.add (.num 3 1) (.mul (.num 2 1) (.var 1)))))) (.mul (.mul (.num 12 1) (.var 1)) (.sqrt (.mul (.mul (.var 1) (.add (.num 1 1) (.var 1))) (.add (.num 3 1) (.mul (.num 2 1) (.var 1))))))) (.mul (.num 6 1) (.sqrt (.mul (.mul (.pow (.var 1) 5) (.add (.num 1 1) (.var 1))) (.add (.num 3 1) (.mul (.num 2 1) (.var 1))))))) (.sqrt (.mul (.mul (.mul (.pow (.var 1) 3) (.pow (.add (.num 1 1) (.var 1)) 3)) (.pow (.add (.num 1 1) (.mul (.num 2 1) (.var 1))) 2)) (.add (.num 3 1) (.mul (.num 2 1) (.var 1))))))) (.sqrt (.mul (.mul (.mul (.mul (.var 1) (.pow (.add (.num 1 1) (.var 1)) 3)) (.pow (.add (.num 2 1) (.var 1)) 3)) (.add (.num 1 1) (.mul (.num 2 1) (.var 1)))) (.pow (.add (.num 3 1) (.mul (.num 2 1) (.var 1))) 3))),
  .div (.mul (.add (.num 5 1) (.mul (.num 2 1) (.var 1))) (.sqrt (.div (.mul (.var 1) (.add (.num 2 1) (.var 1))) (.add (.add (.num 5 1) (.mul (.num 12 1) (.var 1))) (.mul (.num 4 1) (.pow (.var 1) 2)))))) (.add (.num 2 1) (.var 1)),
  .div (.add (.num 3 1) (.mul (.num 2 1) (.var 1))) (.sqrt (.div (.mul (.add (.num 1 1) (.var 1)) (.add (.num 3 1) (.mul (.mul (.num 4 1) (.var 1)) (.add (.num 2 1) (.var 1))))) (.var 1))),
  .div (.sqrt (.div (.mul (.mul (.var 1) (.add (.num 1 1) (.var 1))) (.add (.num 3 1) (.mul (.num 2 1) (.var 1)))) (.add (.num 1 1) (.mul (.num 2 1) (.var 1))))) (.add (.num 1 1) (.var 1)),
  .div (.add (.neg (.sqrt (.mul (.mul (.add (.num 1 1) (.var 1)) (.add (.num 1 1) (.mul (.num 2 1) (.var 1)))) (.add (.num 3 1) (.mul (.num 2 1) (.var 1)))))) (.mul (.mul (.num 2 1) (.var 1)) (.sqrt (.add (.add (.num 2 1) (.var 1)) (.div (.num 1 1) (.add (.num 1 1) (.mul (.num 2 1) (.var 1)))))))) (.mul (.add (.num 1 1) (.var 1)) (.sqrt (.add (.num 3 1) (.mul (.num 2 1) (.var 1))))),
  .div (.sqrt (.add (.neg (.num 1 1)) (.pow (.var 1) 2))) (.var 1),
  .div (.sqrt (.sub (.num 1 1) (.div (.num 2 1) (.add (.num 1 1) (.mul (.num 2 1) (.var 1)))))) (.var 1),
  .neg (.div (.num 1 1) (.var 1)),
  .add (.sub (.num 1 1) (.div (.num 1 1) (.var 1))) (.div (.num 1 1) (.add (.num 1 1) (.var 1))),
  .div (.num 1 1) (.add (.num 1 1) (.var 1)),
  .neg (.div (.sqrt (.add (.num 3 1) (.mul (.mul (.num 4 1) (.var 1)) (.add (.num 2 1) (.var 1))))) (.mul (.add (.num 1 1) (.var 1)) (.add (.num 1 1) (.mul (.num 2 1) (.var 1))))),
  .div (.sqrt (.mul (.var 1) (.add (.num 2 1) (.var 1)))) (.add (.num 1 1) (.var 1)),
  .div (.sqrt (.add (.neg (.num 3 1)) (.mul (.mul (.num 4 1) (.var 1)) (.add (.num 1 1) (.var 1))))) (.add (.num 1 1) (.mul (.num 2 1) (.var 1))),
  .neg (.div (.sqrt (.add (.num 1 1) (.div (.num 2 1) (.add (.num 1 1) (.mul (.num 2 1) (.var 1)))))) (.add (.num 1 1) (.var 1))),
  .div (.num 1 1) (.add (.add (.num 1 1) (.mul (.num 3 1) (.var 1))) (.mul (.num 2 1) (.pow (.var 1) 2))),
  .neg (.div (.num 1 1) (.add (.num 1 1) (.var 1))),
  .div (.num 1 1) (.var 1),
  .div (.num 1 1) (.add (.var 1) (.mul (.num 2 1) (.pow (.var 1) 2))),
  .div (.add (.add (.sqrt (.mul (.mul (.mul (.var 1) (.add (.num 1 1) (.var 1))) (.add (.neg (.num 1 1)) (.mul (.num 2 1) (.var 1)))) (.add (.num 1 1) (.mul (.num 2 1) (.var 1))))) (.sqrt (.div (.mul (.var 1) (.add (.neg (.num 1 1)) (.mul (.num 2 1) (.var 1)))) (.add (.add (.num 1 1) (.mul (.num 3 1) (.var 1))) (.mul (.num 2 1) (.pow (.var 1) 2)))))) (.sqrt (.div (.mul (.var 1) (.add (.neg (.num 1 1)) (.mul (.num 4 1) (.pow (.var 1) 2)))) (.add (.num 1 1) (.var 1))))) (.sqrt (.mul (.mul (.mul (.var 1) (.add (.num 1 1) (.var 1))) (.add (.num 1 1) (.mul (.num 2 1) (.var 1)))) (.add (.num 3 1) (.mul (.num 2 1) (.var 1))))),
  .sqrt (.add (.add (.num 1 1) (.div (.num 6 1) (.sub (.num 1 1) (.mul (.num 2 1) (.var 1))))) (.div (.num 3 1) (.var 1))),
  .div (.mul (.sqrt (.num 3 1)) (.sqrt (.div (.add (.neg (.num 1 1)) (.var 1)) (.add (.neg (.num 1 1)) (.mul (.num 2 1) (.var 1)))))) (.var 1),
  .neg (.div (.sqrt (.num 3 1)) (.sqrt (.mul (.var 1) (.add (.neg (.num 1 1)) (.mul (.num 2 1) (.var 1)))))),
  .div (.add (.add (.neg (.num 4 1)) (.var 1)) (.mul (.num 2 1) (.pow (.var 1) 2))) (.sqrt (.mul (.mul (.var 1) (.add (.num 1 1) (.var 1))) (.add (.neg (.num 1 1)) (.mul (.num 4 1) (.pow (.var 1) 2))))),
  .div (.add (.add (.sub (.mul (.num 3 1) (.sqrt (.div (.mul (.mul (.var 1) (.add (.num 1 1) (.var 1))) (.add (.num 3 1) (.mul (.num 2 1) (.var 1)))) (.add (.neg (.num 1 1)) (.mul (.num 4 1) (.pow (.var 1) 2)))))) (.mul (.mul (.num 10 1) (.var 1)) (.sqrt (.div (.mul (.mul (.var 1) (.add (.num 1 1) (.var 1))) (.add (.num 3 1) (.mul (.num 2 1) (.var 1)))) (.add (.neg (.num 1 1)) (.mul (.num 4 1) (.pow (.var 1) 2))))))) (.mul (.mul (.num 8 1) (.pow (.var 1) 2)) (.sqrt (.div (.mul (.mul (.var 1) (.add (.num 1 1) (.var 1))) (.add (.num 3 1) (.mul (.num 2 1) (.var 1)))) (.add (.neg (.num 1 1)) (.mul (.num 4 1) (.pow (.var 1) 2))))))) (.mul (.mul (.num 9 1) (.add (.num 1 1) (.var 1))) (.sqrt (.div (.mul (.var 1) (.add (.neg (.num 3 1)) (.mul (.mul (.num 4 1) (.var 1)) (.add (.num 1 1) (.var 1))))) (.mul (.add (.num 1 1) (.var 1)) (.add (.num 1 1) (.mul (.num 2 1) (.var 1)))))))) (.mul (.mul (.mul (.num 2 1) (.var 1)) (.hpow (.add (.num 1 1) (.var 1)) 1)) (.add (.num 3 1) (.mul (.num 2 1) (.var 1)))),
  .div (.add (.sub (.add (.add (.sub (.mul (.neg (.num 5 1)) (.sqrt (.div (.mul (.pow (.var 1) 3) (.add (.num 3 1) (.mul (.num 2 1) (.var 1)))) (.add (.num 1 1) (.mul (.num 2 1) (.var 1)))))) (.mul (.num 4 1) (.sqrt (.div (.mul (.pow (.var 1) 5) (.add (.num 3 1) (.mul (.num 2 1) (.var 1)))) (.add (.num 1 1) (.mul (.num 2 1) (.var 1))))))) (.mul (.num 4 1) (.sqrt (.div (.mul (.pow (.var 1) 7) (.add (.num 3 1) (.mul (.num 2 1) (.var 1)))) (.add (.num 1 1) (.mul (.num 2 1) (.var 1))))))) (.sqrt (.mul (.pow (.var 1) 3) (.add (.num 3 1) (.mul (.mul (.num 4 1) (.var 1)) (.add (.num 2 1) (.var 1))))))) (.mul (.num 2 1) (.sqrt (.mul (.pow (.var 1) 5) (.add (.num 3 1) (.mul (.mul (.num 4 1) (.var 1)) (.add (.num 2 1) (.var 1)))))))) (.mul (.num 3 1) (.sqrt (.add (.var 1) (.div (.mul (.num 2 1) (.var 1)) (.add (.num 1 1) (.mul (.num 2 1) (.var 1)))))))) (.mul (.mul (.var 1) (.add (.num 3 1) (.mul (.num 2 1) (.var 1)))) (.sqrt (.mul (.var 1) (.add (.add (.neg (.num 1 1)) (.var 1)) (.mul (.num 2 1) (.pow (.var 1) 2)))))),
  .div (.add (.neg (.num 3 1)) (.mul (.var 1) (.add (.num 3 1) (.mul (.num 2 1) (.var 1))))) (.sqrt (.mul (.mul (.mul (.var 1) (.add (.num 1 1) (.var 1))) (.add (.num 1 1) (.mul (.num 2 1) (.var 1)))) (.add (.num 3 1) (.mul (.num 2 1) (.var 1))))),
  .div (.sqrt (.num 3 1)) (.sqrt (.mul (.add (.num 1 1) (.var 1)) (.add (.num 3 1) (.mul (.num 2 1) (.var 1))))),
  .div (.mul (.neg (.num 1 2)) (.mul (.sqrt (.add (.add (.neg (.num 9 1)) (.mul (.num 6 1) (.var 1))) (.div (.num 15 1) (.add (.num 2 1) (.var 1))))) (.add (.add (.mul (.neg (.num 3 1)) (.sqrt (.add (.add (.neg (.num 3 1)) (.var 1)) (.mul (.mul (.num 4 1) (.pow (.var 1) 2)) (.add (.num 2 1) (.var 1)))))) (.mul (.num 9 1) (.sqrt (.add (.add (.num 3 1) (.var 1)) (.div (.num 6 1) (.add (.neg (.num 1 1)) (.mul (.num 2 1) (.var 1)))))))) (.mul (.mul (.mul (.num 4 1) (.var 1)) (.add (.num 5 1) (.var 1))) (.sqrt (.add (.add (.num 3 1) (.var 1)) (.div (.num 6 1) (.add (.neg (.num 1 1)) (.mul (.num 2 1) (.var 1)))))))))) (.mul (.pow (.add (.num 1 1) (.var 1)) 2) (.pow (.add (.num 3 1) (.mul (.num 2 1) (.var 1))) 2)),
  .div (.add (.num 5 1) (.mul (.num 2 1) (.var 1))) (.sqrt (.div (.mul (.mul (.add (.num 1 1) (.var 1)) (.add (.num 3 1) (.mul (.num 2 1) (.var 1)))) (.add (.num 5 1) (.mul (.num 2 1) (.var 1)))) (.var 1))),
  .div (.num 1 1) (.sqrt (.div (.mul (.var 1) (.add (.num 1 1) (.mul (.num 2 1) (.var 1)))) (.add (.add (.neg (.num 3 1)) (.var 1)) (.mul (.num 2 1) (.pow (.var 1) 2))))),
  .neg (.div (.sqrt (.add (.add (.num 9 1) (.mul (.num 15 1) (.var 1))) (.mul (.num 6 1) (.pow (.var 1) 2)))) (.mul (.add (.num 1 1) (.var 1)) (.add (.num 1 1) (.mul (.num 2 1) (.var 1))))),
  .div (.sqrt (.mul (.mul (.mul (.var 1) (.add (.num 2 1) (.var 1))) (.add (.neg (.num 1 1)) (.mul (.num 2 1) (.var 1)))) (.add (.num 3 1) (.mul (.num 2 1) (.var 1))))) (.mul (.add (.num 1 1) (.var 1)) (.add (.num 1 1) (.mul (.num 2 1) (.var 1)))),
  .div (.sqrt (.num 3 1)) (.mul (.sqrt (.mul (.var 1) (.add (.num 1 1) (.var 1)))) (.add (.num 1 1) (.mul (.num 2 1) (.var 1)))),
  .div (.mul (.neg (.num 4 1)) (.sqrt (.mul (.mul (.mul (.var 1) (.add (.num 1 1) (.var 1))) (.add (.num 2 1) (.var 1))) (.add (.num 3 1) (.mul (.num 2 1) (.var 1)))))) (.mul (.add (.num 1 1) (.var 1)) (.add (.num 3 1) (.mul (.mul (.num 4 1) (.var 1)) (.add (.num 2 1) (.var 1))))),
  .div (.mul (.add (.num 5 1) (.mul (.num 2 1) (.var 1))) (.sqrt (.div (.mul (.var 1) (.add (.num 1 1) (.var 1))) (.add (.add (.num 15 1) (.mul (.num 16 1) (.var 1))) (.mul (.num 4 1) (.pow (.var 1) 2)))))) (.add (.num 1 1) (.var 1)),
  .div (.sqrt (.num 3 1)) (.mul (.add (.num 1 1) (.var 1)) (.sqrt (.add (.num 3 1) (.mul (.mul (.num 4 1) (.var 1)) (.add (.num 2 1) (.var 1)))))),
  .neg (.div (.sqrt (.num 3 1)) (.sqrt (.mul (.add (.num 1 1) (.var 1)) (.add (.num 3 1) (.mul (.num 2 1) (.var 1)))))),
  .div (.sqrt (.num 3 1)) (.sqrt (.mul (.var 1) (.add (.neg (.num 1 1)) (.mul (.num 2 1) (.var 1))))),
  .div (.sqrt (.num 3 1)) (.mul (.var 1) (.sqrt (.add (.neg (.num 1 1)) (.mul (.num 4 1) (.pow (.var 1) 2))))),
  .div (.mul (.num 2 1) (.add (.add (.sqrt (.neg (.div (.add (.num 1 1) (.var 1)) (.sub (.add (.num 1 1) (.var 1)) (.mul (.num 2 1) (.pow (.var 1) 2)))))) (.mul (.mul (.var 1) (.add (.neg (.num 3 1)) (.mul (.num 2 1) (.var 1)))) (.sqrt (.neg (.div (.add (.num 1 1) (.var 1)) (.sub (.add (.num 1 1) (.var 1)) (.mul (.num 2 1) (.pow (.var 1) 2)))))))) (.mul (.num 3 1) (.sqrt (.div (.add (.neg (.num 1 1)) (.pow (.var 1) 2)) (.add (.num 1 1) (.mul (.num 2 1) (.var 1)))))))) (.mul (.add (.num 1 1) (.var 1)) (.sqrt (.mul (.var 1) (.add (.neg (.num 1 1)) (.mul (.num 4 1) (.pow (.var 1) 2)))))),
  .div (.add (.mul (.num 3 1) (.sqrt (.add (.div (.num 3 1) (.add (.num 1 1) (.mul (.num 2 1) (.var 1)))) (.mul (.var 1) (.add (.add (.neg (.num 4 1)) (.var 1)) (.mul (.num 2 1) (.pow (.var 1) 2))))))) (.mul (.mul (.add (.neg (.num 1 1)) (.var 1)) (.var 1)) (.add (.sqrt (.div (.mul (.mul (.mul (.add (.num 1 1) (.var 1)) (.add (.neg (.num 1 1)) (.mul (.num 2 1) (.var 1)))) (.add (.num 1 1) (.mul (.num 2 1) (.var 1)))) (.add (.num 3 1) (.mul (.num 2 1) (.var 1)))) (.add (.neg (.num 1 1)) (.var 1)))) (.mul (.num 4 1) (.sqrt (.div (.add (.add (.neg (.num 3 1)) (.var 1)) (.mul (.mul (.num 4 1) (.pow (.var 1) 2)) (.add (.num 2 1) (.var 1)))) (.mul (.add (.neg (.num 1 1)) (.var 1)) (.add (.num 1 1) (.mul (.num 2 1) (.var 1)))))))))) (.mul (.mul (.mul (.var 1) (.add (.num 1 1) (.var 1))) (.sqrt (.add (.num 1 1) (.mul (.num 2 1) (.var 1))))) (.add (.num 3 1) (.mul (.num 2 1) (.var 1)))),
  .div (.mul (.sqrt (.num 3 1)) (.add (.add (.sqrt (.mul (.mul (.mul (.pow (.var 1) 3) (.add (.num 1 1) (.var 1))) (.add (.neg (.num 1 1)) (.mul (.num 2 1) (.var 1)))) (.add (.num 1 1) (.mul (.num 2 1) (.var 1))))) (.mul (.num 3 1) (.sqrt (.div (.mul (.var 1) (.add (.add (.neg (.num 1 1)) (.var 1)) (.mul (.num 2 1) (.pow (.var 1) 2)))) (.add (.num 1 1) (.mul (.num 2 1) (.var 1))))))) (.mul (.mul (.num 4 1) (.var 1)) (.sqrt (.div (.mul (.var 1) (.add (.add (.neg (.num 1 1)) (.var 1)) (.mul (.num 2 1) (.pow (.var 1) 2)))) (.add (.num 1 1) (.mul (.num 2 1) (.var 1)))))))) (.mul (.mul (.mul (.var 1) (.hpow (.add (.num 1 1) (.var 1)) 1)) (.sqrt (.add (.num 1 1) (.mul (.num 2 1) (.var 1))))) (.add (.num 3 1) (.mul (.num 2 1) (.var 1)))),
  .div (.add (.add (.add (.mul (.mul (.num 3 1) (.add (.num 1 1) (.mul (.num 2 1) (.var 1)))) (.sqrt (.div (.mul (.var 1) (.add (.add (.neg (.num 1 1)) (.var 1)) (.mul (.num 2 1) (.pow (.var 1) 2)))) (.add (.num 3 1) (.mul (.num 2 1) (.var 1)))))) (.mul (.num 3 1) (.sqrt (.div (.mul (.var 1) (.add (.neg (.num 1 1)) (.mul (.num 2 1) (.var 1)))) (.add (.add (.num 3 1) (.mul (.num 5 1) (.var 1))) (.mul (.num 2 1) (.pow (.var 1) 2))))))) (.mul (.mul (.num 3 1) (.add (.num 1 1) (.mul (.num 2 1) (.var 1)))) (.sqrt (.div (.mul (.var 1) (.add (.neg (.num 1 1)) (.mul (.num 2 1) (.var 1)))) (.add (.add (.num 3 1) (.mul (.num 5 1) (.var 1))) (.mul (.num 2 1) (.pow (.var 1) 2))))))) (.mul (.add (.num 1 1) (.mul (.num 2 1) (.var 1))) (.sqrt (.mul (.var 1) (.add (.add (.neg (.num 3 1)) (.var 1)) (.mul (.mul (.num 4 1) (.pow (.var 1) 2)) (.add (.num 2 1) (.var 1)))))))) (.mul (.mul (.num 2 1) (.add (.num 1 1) (.var 1))) (.sqrt (.mul (.mul (.mul (.var 1) (.add (.num 2 1) (.var 1))) (.add (.num 1 1) (.mul (.num 2 1) (.var 1)))) (.add (.num 3 1) (.mul (.num 2 1) (.var 1)))))),
  .sqrt (.add (.sub (.num 1 1) (.div (.num 2 1) (.add (.neg (.num 1 1)) (.var 1)))) (.div (.num 2 1) (.var 1))),
  .sqrt (.div (.add (.neg (.num 6 1)) (.mul (.num 4 1) (.var 1))) (.add (.sub (.var 1) (.mul (.num 3 1) (.pow (.var 1) 2))) (.mul (.num 2 1) (.pow (.var 1) 3)))),
  .neg (.div (.sqrt (.num 2 1)) (.sqrt (.mul (.add (.neg (.num 1 1)) (.var 1)) (.var 1)))),
  .div (.add (.neg (.num 3 1)) (.pow (.var 1) 2)) (.mul (.var 1) (.sqrt (.add (.neg (.num 1 1)) (.pow (.var 1) 2)))),
  .div (.mul (.sqrt (.num 3 1)) (.add (.add (.neg (.num 3 1)) (.var 1)) (.mul (.num 2 1) (.pow (.var 1) 2)))) (.mul (.var 1) (.sqrt (.mul (.mul (.mul (.add (.neg (.num 1 1)) (.var 1)) (.add (.num 1 1) (.var 1))) (.add (.num 1 1) (.mul (.num 2 1) (.var 1)))) (.add (.num 3 1) (.mul (.num 2 1) (.var 1)))))),
  .neg (.div (.mul (.sqrt (.num 3 1)) (.add (.add (.neg (.num 3 1)) (.var 1)) (.mul (.num 2 1) (.pow (.var 1) 2)))) (.mul (.var 1) (.sqrt (.mul (.add (.num 1 1) (.var 1)) (.add (.sub (.num 3 1) (.mul (.num 7 1) (.var 1))) (.mul (.num 4 1) (.pow (.var 1) 3))))))),
  .add (.sub (.num 1 1) (.div (.num 3 1) (.var 1))) (.div (.num 3 1) (.add (.num 1 1) (.var 1))),
  .div (.mul (.sqrt (.num 3 1)) (.sqrt (.add (.sub (.num 5 1) (.div (.num 6 1) (.var 1))) (.mul (.mul (.num 4 1) (.var 1)) (.add (.num 3 1) (.var 1)))))) (.mul (.add (.num 1 1) (.var 1)) (.add (.num 3 1) (.mul (.num 2 1) (.var 1)))),
  .neg (.div (.mul (.sqrt (.num 3 1)) (.sqrt (.add (.add (.sub (.neg (.num 1 1)) (.div (.num 2 1) (.var 1))) (.mul (.num 8 1) (.var 1))) (.mul (.num 4 1) (.pow (.var 1) 2))))) (.add (.add (.num 1 1) (.mul (.num 3 1) (.var 1))) (.mul (.num 2 1) (.pow (.var 1) 2)))),
  .div (.add (.neg (.num 2 1)) (.mul (.var 1) (.add (.num 2 1) (.var 1)))) (.mul (.add (.num 1 1) (.var 1)) (.sqrt (.mul (.var 1) (.add (.num 2 1) (.var 1))))),
  .div (.sqrt (.num 2 1)) (.sqrt (.mul (.add (.num 1 1) (.var 1)) (.add (.num 2 1) (.var 1)))),
  .neg (.div (.mul (.sqrt (.num 2 1)) (.add (.num 5 1) (.mul (.num 2 1) (.var 1)))) (.sqrt (.mul (.mul (.mul (.add (.num 1 1) (.var 1)) (.add (.num 2 1) (.var 1))) (.add (.num 3 1) (.mul (.num 2 1) (.var 1)))) (.add (.num 5 1) (.mul (.num 2 1) (.var 1)))))),
  .div (.add (.num 3 1) (.var 1)) (.sqrt (.div (.mul (.mul (.add (.num 1 1) (.var 1)) (.add (.num 2 1) (.var 1))) (.add (.num 3 1) (.var 1))) (.var 1))),
  .sqrt (.div (.sub (.num 9 1) (.mul (.num 4 1) (.pow (.var 1) 2))) (.sub (.num 1 1) (.mul (.num 4 1) (.pow (.var 1) 2)))),
  .neg (.div (.sqrt (.add (.add (.num 22 1) (.div (.num 6 1) (.var 1))) (.mul (.mul (.num 8 1) (.var 1)) (.add (.num 3 1) (.var 1))))) (.mul (.add (.num 1 1) (.var 1)) (.add (.num 1 1) (.mul (.num 2 1) (.var 1))))),
  .div (.sqrt (.div (.mul (.add (.add (.neg (.num 2 1)) (.var 1)) (.pow (.var 1) 2)) (.add (.add (.neg (.num 3 1)) (.var 1)) (.mul (.mul (.num 4 1) (.pow (.var 1) 2)) (.add (.num 2 1) (.var 1))))) (.var 1))) (.mul (.add (.num 1 1) (.var 1)) (.add (.num 1 1) (.mul (.num 2 1) (.var 1)))),
  .div (.sqrt (.num 6 1)) (.sqrt (.mul (.mul (.var 1) (.add (.num 1 1) (.mul (.num 2 1) (.var 1)))) (.add (.add (.neg (.num 1 1)) (.var 1)) (.mul (.num 2 1) (.pow (.var 1) 2))))),
  .mul (.mul (.sqrt (.num 3 1)) (.sqrt (.mul (.add (.num 1 1) (.var 1)) (.add (.num 3 1) (.mul (.num 2 1) (.var 1)))))) (.add (.add (.div (.mul (.mul (.mul (.neg (.num 2 1)) (.add (.neg (.num 1 1)) (.var 1))) (.var 1)) (.add (.neg (.num 1 1)) (.mul (.num 2 1) (.var 1)))) (.mul (.hpow (.add (.num 1 1) (.var 1)) 1) (.sqrt (.mul (.mul (.mul (.mul (.var 1) (.add (.num 2 1) (.var 1))) (.add (.neg (.num 1 1)) (.mul (.num 2 1) (.var 1)))) (.add (.num 1 1) (.mul (.num 2 1) (.var 1)))) (.add (.num 3 1) (.mul (.num 2 1) (.var 1))))))) (.div (.mul (.pow (.sub (.num 1 1) (.mul (.num 2 1) (.var 1))) 2) (.add (.neg (.num 4 1)) (.var 1))) (.mul (.add (.num 1 1) (.var 1)) (.sqrt (.mul (.mul (.mul (.mul (.mul (.var 1) (.add (.num 1 1) (.var 1))) (.add (.num 2 1) (.var 1))) (.add (.neg (.num 1 1)) (.mul (.num 2 1) (.var 1)))) (.add (.num 1 1) (.mul (.num 2 1) (.var 1)))) (.add (.num 3 1) (.mul (.num 2 1) (.var 1)))))))) (.mul (.num 6 1) (.sqrt (.div (.mul (.pow (.add (.neg (.num 1 1)) (.var 1)) 2) (.add (.neg (.num 1 1)) (.mul (.num 2 1) (.var 1)))) (.mul (.mul (.var 1) (.pow (.add (.num 1 1) (.var 1)) 3)) (.add (.add (.add (.num 6 1) (.mul (.num 19 1) (.var 1))) (.mul (.num 16 1) (.pow (.var 1) 2))) (.mul (.num 4 1) (.pow (.var 1) 3)))))))),
  .mul (.sqrt (.mul (.add (.num 1 1) (.var 1)) (.add (.num 3 1) (.mul (.num 2 1) (.var 1))))) (.add (.add (.div (.mul (.num 9 1) (.add (.num 3 1) (.mul (.mul (.num 4 1) (.add (.neg (.num 2 1)) (.var 1))) (.var 1)))) (.sqrt (.div (.mul (.mul (.mul (.mul (.mul (.pow (.add (.num 1 1) (.var 1)) 3) (.add (.num 2 1) (.var 1))) (.add (.neg (.num 1 1)) (.mul (.num 2 1) (.var 1)))) (.add (.num 1 1) (.mul (.num 2 1) (.var 1)))) (.pow (.add (.num 3 1) (.mul (.num 2 1) (.var 1))) 2)) (.add (.num 5 1) (.mul (.num 2 1) (.var 1)))) (.var 1)))) (.div (.mul (.num 36 1) (.sqrt (.div (.mul (.var 1) (.add (.neg (.num 1 1)) (.mul (.num 2 1) (.var 1)))) (.add (.add (.add (.add (.num 10 1) (.mul (.num 39 1) (.var 1))) (.mul (.num 49 1) (.pow (.var 1) 2))) (.mul (.num 24 1) (.pow (.var 1) 3))) (.mul (.num 4 1) (.pow (.var 1) 4)))))) (.add (.add (.num 3 1) (.mul (.num 5 1) (.var 1))) (.mul (.num 2 1) (.pow (.var 1) 2))))) (.div (.mul (.mul (.var 1) (.add (.neg (.num 1 1)) (.mul (.num 2 1) (.var 1)))) (.add (.num 1 1) (.mul (.var 1) (.add (.neg (.num 9 1)) (.mul (.num 2 1) (.var 1)))))) (.sqrt (.mul (.mul (.mul (.mul (.mul (.mul (.var 1) (.pow (.add (.num 1 1) (.var 1)) 3)) (.add (.num 2 1) (.var 1))) (.add (.neg (.num 1 1)) (.mul (.num 2 1) (.var 1)))) (.add (.num 1 1) (.mul (.num 2 1) (.var 1)))) (.pow (.add (.num 3 1) (.mul (.num 2 1) (.var 1))) 2)) (.add (.num 5 1) (.mul (.num 2 1) (.var 1))))))),
  .div (.num 3 1) (.add (.add (.num 1 1) (.mul (.num 3 1) (.var 1))) (.mul (.num 2 1) (.pow (.var 1) 2))),
  .neg (.div (.mul (.mul (.sqrt (.num 3 1)) (.add (.num 5 1) (.mul (.num 2 1) (.var 1)))) (.sqrt (.div (.var 1) (.add (.add (.add (.num 10 1) (.mul (.num 29 1) (.var 1))) (.mul (.num 20 1) (.pow (.var 1) 2))) (.mul (.num 4 1) (.pow (.var 1) 3)))))) (.add (.num 1 1) (.var 1))),
  .div (.mul (.add (.num 3 1) (.var 1)) (.sqrt (.div (.mul (.var 1) (.add (.num 1 1) (.var 1))) (.add (.add (.num 6 1) (.mul (.num 5 1) (.var 1))) (.pow (.var 1) 2))))) (.add (.num 1 1) (.var 1)),
  .div (.sqrt (.num 6 1)) (.sqrt (.mul (.mul (.mul (.add (.num 1 1) (.var 1)) (.add (.num 2 1) (.var 1))) (.add (.num 1 1) (.mul (.num 2 1) (.var 1)))) (.add (.num 3 1) (.mul (.num 2 1) (.var 1))))),
  .neg (.div (.sqrt (.num 2 1)) (.sqrt (.mul (.add (.num 1 1) (.var 1)) (.add (.num 2 1) (.var 1))))),
  .div (.sqrt (.num 2 1)) (.sqrt (.mul (.add (.neg (.num 1 1)) (.var 1)) (.var 1))),
  .div (.sqrt (.num 6 1)) (.sqrt (.mul (.mul (.mul (.add (.neg (.num 1 1)) (.var 1)) (.var 1)) (.add (.neg (.num 1 1)) (.mul (.num 2 1) (.var 1)))) (.add (.num 1 1) (.mul (.num 2 1) (.var 1))))),
  .div (.mul (.add (.neg (.num 3 1)) (.mul (.num 2 1) (.var 1))) (.sqrt (.div (.add (.add (.num 3 1) (.mul (.num 9 1) (.var 1))) (.mul (.num 6 1) (.pow (.var 1) 2))) (.add (.sub (.num 3 1) (.mul (.num 5 1) (.var 1))) (.mul (.num 2 1) (.pow (.var 1) 2)))))) (.mul (.var 1) (.add (.num 1 1) (.mul (.num 2 1) (.var 1)))),
  .div (.num 3 1) (.add (.var 1) (.mul (.num 2 1) (.pow (.var 1) 2))),
  .div (.add (.sub (.num 9 1) (.mul (.num 13 1) (.pow (.var 1) 2))) (.mul (.num 4 1) (.pow (.var 1) 4))) (.mul (.var 1) (.sqrt (.add (.neg (.num 9 1)) (.mul (.pow (.var 1) 2) (.pow (.sub (.num 7 1) (.mul (.num 4 1) (.pow (.var 1) 2))) 2))))),
  .mul (.sqrt (.num 3 1)) (.add (.add (.div (.mul (.add (.neg (.num 1 1)) (.var 1)) (.add (.neg (.num 1 1)) (.mul (.num 2 1) (.var 1)))) (.mul (.hpow (.add (.num 1 1) (.var 1)) 1) (.sqrt (.mul (.mul (.add (.neg (.num 1 1)) (.var 1)) (.add (.num 1 1) (.mul (.num 2 1) (.var 1)))) (.add (.num 3 1) (.mul (.num 2 1) (.var 1))))))) (.div (.add (.sub (.num 3 1) (.mul (.num 9 1) (.var 1))) (.mul (.num 6 1) (.pow (.var 1) 2))) (.mul (.mul (.var 1) (.add (.num 1 1) (.var 1))) (.sqrt (.mul (.mul (.mul (.add (.neg (.num 1 1)) (.var 1)) (.add (.num 1 1) (.var 1))) (.add (.num 1 1) (.mul (.num 2 1) (.var 1)))) (.add (.num 3 1) (.mul (.num 2 1) (.var 1)))))))) (.div (.mul (.num 6 1) (.sqrt (.div (.add (.neg (.num 1 1)) (.var 1)) (.mul (.pow (.add (.num 1 1) (.var 1)) 3) (.add (.num 3 1) (.mul (.mul (.num 4 1) (.var 1)) (.add (.num 2 1) (.var 1)))))))) (.var 1))),
  .div (.sqrt (.num 6 1)) (.sqrt (.mul (.mul (.mul (.var 1) (.add (.num 1 1) (.var 1))) (.add (.num 1 1) (.mul (.num 2 1) (.var 1)))) (.add (.num 3 1) (.mul (.num 2 1) (.var 1))))),
  .add (.add (.add (.mul (.add (.neg (.num 1 1)) (.var 1)) (.sqrt (.div (.mul (.var 1) (.add (.neg (.num 1 1)) (.mul (.num 2 1) (.var 1)))) (.mul (.add (.neg (.num 1 1)) (.pow (.var 1) 2)) (.add (.add (.num 6 1) (.mul (.num 7 1) (.var 1))) (.mul (.num 2 1) (.pow (.var 1) 2))))))) (.mul (.mul (.mul (.num 3 1) (.add (.neg (.num 1 1)) (.var 1))) (.var 1)) (.sqrt (.div (.add (.neg (.num 1 1)) (.mul (.num 2 1) (.var 1))) (.mul (.mul (.var 1) (.pow (.add (.num 1 1) (.var 1)) 3)) (.add (.add (.sub (.neg (.num 6 1)) (.var 1)) (.mul (.num 5 1) (.pow (.var 1) 2))) (.mul (.num 2 1) (.pow (.var 1) 3)))))))) (.div (.mul (.num 6 1) (.sqrt (.div (.add (.sub (.num 1 1) (.mul (.num 3 1) (.var 1))) (.mul (.num 2 1) (.pow (.var 1) 2))) (.mul (.var 1) (.add (.add (.add (.num 6 1) (.mul (.num 13 1) (.var 1))) (.mul (.num 9 1) (.pow (.var 1) 2))) (.mul (.num 2 1) (.pow (.var 1) 3))))))) (.add (.add (.num 1 1) (.mul (.num 3 1) (.var 1))) (.mul (.num 2 1) (.pow (.var 1) 2))))) (.div (.mul (.mul (.num 9 1) (.add (.neg (.num 1 1)) (.var 1))) (.sqrt (.div (.mul (.var 1) (.add (.neg (.num 1 1)) (.mul (.num 2 1) (.var 1)))) (.mul (.pow (.add (.num 1 1) (.mul (.num 2 1) (.var 1))) 2) (.add (.add (.add (.sub (.neg (.num 6 1)) (.mul (.num 7 1) (.var 1))) (.mul (.num 4 1) (.pow (.var 1) 2))) (.mul (.num 7 1) (.pow (.var 1) 3))) (.mul (.num 2 1) (.pow (.var 1) 4))))))) (.add (.num 1 1) (.var 1))),
  .div (.mul (.sqrt (.num 2 1)) (.add (.add (.mul (.num 6 1) (.sqrt (.mul (.var 1) (.add (.neg (.num 3 1)) (.mul (.mul (.num 4 1) (.var 1)) (.add (.num 1 1) (.var 1))))))) (.mul (.num 7 1) (.sqrt (.mul (.pow (.var 1) 3) (.add (.neg (.num 3 1)) (.mul (.mul (.num 4 1) (.var 1)) (.add (.num 1 1) (.var 1)))))))) (.mul (.num 2 1) (.sqrt (.mul (.pow (.var 1) 5) (.add (.neg (.num 3 1)) (.mul (.mul (.num 4 1) (.var 1)) (.add (.num 1 1) (.var 1))))))))) (.mul (.mul (.mul (.var 1) (.add (.num 2 1) (.var 1))) (.add (.num 3 1) (.mul (.num 2 1) (.var 1)))) (.sqrt (.mul (.mul (.add (.num 1 1) (.var 1)) (.add (.num 1 1) (.mul (.num 2 1) (.var 1)))) (.add (.num 3 1) (.mul (.num 2 1) (.var 1)))))),
  .div (.add (.add (.add (.sqrt (.mul (.mul (.mul (.var 1) (.add (.num 2 1) (.var 1))) (.add (.neg (.num 1 1)) (.mul (.num 2 1) (.var 1)))) (.add (.num 3 1) (.mul (.num 2 1) (.var 1))))) (.mul (.num 18 1) (.sqrt (.div (.mul (.var 1) (.add (.neg (.num 1 1)) (.mul (.num 2 1) (.var 1)))) (.add (.add (.num 6 1) (.mul (.num 7 1) (.var 1))) (.mul (.num 2 1) (.pow (.var 1) 2))))))) (.mul (.num 2 1) (.sqrt (.div (.mul (.var 1) (.add (.neg (.num 3 1)) (.mul (.mul (.num 4 1) (.var 1)) (.add (.num 1 1) (.var 1))))) (.add (.num 2 1) (.var 1)))))) (.mul (.mul (.num 2 1) (.var 1)) (.add (.add (.sqrt (.mul (.mul (.mul (.var 1) (.add (.num 2 1) (.var 1))) (.add (.neg (.num 1 1)) (.mul (.num 2 1) (.var 1)))) (.add (.num 3 1) (.mul (.num 2 1) (.var 1))))) (.mul (.num 6 1) (.sqrt (.div (.mul (.var 1) (.add (.neg (.num 1 1)) (.mul (.num 2 1) (.var 1)))) (.add (.add (.num 6 1) (.mul (.num 7 1) (.var 1))) (.mul (.num 2 1) (.pow (.var 1) 2))))))) (.mul (.num 2 1) (.sqrt (.div (.mul (.var 1) (.add (.neg (.num 3 1)) (.mul (.mul (.num 4 1) (.var 1)) (.add (.num 1 1) (.var 1))))) (.add (.num 2 1) (.var 1)))))))) (.mul (.add (.num 3 1) (.mul (.num 2 1) (.var 1))) (.sqrt (.mul (.mul (.mul (.var 1) (.add (.num 2 1) (.var 1))) (.add (.num 1 1) (.mul (.num 2 1) (.var 1)))) (.add (.num 5 1) (.mul (.num 2 1) (.var 1))))))]

/-- The factors of class `QSLR`. -/
def factors_QSLR : List Ex := [
  .num 1 1,
  .div (.mul (.neg (.num 2 1)) (.sqrt (.mul (.var 1) (.add (.num 1 1) (.var 1))))) (.add (.num 1 1) (.mul (.num 2 1) (.var 1))),
  .div (.num 1 1) (.add (.num 1 1) (.mul (.num 2 1) (.var 1))),
  .neg (.num 1 1),
  .div (.num 1 1) (.sqrt (.div (.mul (.var 1) (.add (.num 1 1) (.mul (.num 2 1) (.var 1)))) (.add (.add (.neg (.num 1 1)) (.var 1)) (.mul (.num 2 1) (.pow (.var 1) 2))))),
  .neg (.div (.num 1 1) (.sqrt (.mul (.var 1) (.add (.num 1 1) (.mul (.num 2 1) (.var 1)))))),
  .div (.mul (.var 1) (.add (.num 3 1) (.mul (.num 2 1) (.var 1)))) (.sqrt (.mul (.mul (.var 1) (.add (.num 1 1) (.var 1))) (.add (.num 3 1) (.mul (.mul (.num 4 1) (.var 1)) (.add (.num 2 1) (.var 1)))))),
  .neg (.div (.num 1 1) (.sqrt (.mul (.add (.num 1 1) (.var 1)) (.add (.num 1 1) (.mul (.num 2 1) (.var 1)))))),
  .div (.num 1 1) (.sub (.neg (.num 1 1)) (.mul (.num 2 1) (.var 1))),
  .div (.num 1 1) (.sqrt (.mul (.var 1) (.add (.num 1 1) (.mul (.num 2 1) (.var 1))))),
  .div (.add (.add (.neg (.num 1 1)) (.var 1)) (.mul (.num 2 1) (.pow (.var 1) 2))) (.sqrt (.mul (.mul (.var 1) (.add (.num 1 1) (.var 1))) (.add (.neg (.num 1 1)) (.mul (.num 4 1) (.pow (.var 1) 2))))),
  .div (.num 1 1) (.sqrt (.mul (.add (.num 1 1) (.var 1)) (.add (.num 1 1) (.mul (.num 2 1) (.var 1))))),
  .add (.add (.sqrt (.div (.mul (.var 1) (.add (.num 1 1) (.mul (.num 2 1) (.var 1)))) (.mul (.pow (.add (.num 1 1) (.var 1)) 3) (.add (.num 3 1) (.mul (.num 2 1) (.var 1)))))) (.sqrt (.div (.var 1) (.mul (.pow (.add (.num 1 1) (.var 1)) 3) (.add (.num 3 1) (.mul (.mul (.num 4 1) (.var 1)) (.add (.num 2 1) (.var 1)))))))) (.sqrt (.sub (.add (.num 1 1) (.div (.num 1 1) (.add (.num 1 1) (.var 1)))) (.div (.num 6 1) (.add (.num 3 1) (.mul (.num 2 1) (.var 1)))))),
  .div (.add (.num 3 1) (.mul (.num 2 1) (.var 1))) (.sqrt (.div (.mul (.add (.num 1 1) (.var 1)) (.add (.num 3 1) (.mul (.mul (.num 4 1) (.var 1)) (.add (.num 2 1) (.var 1))))) (.var 1))),
  .div (.sqrt (.add (.neg (.num 1 1)) (.pow (.var 1) 2))) (.var 1),
  .div (.sqrt (.sub (.num 1 1) (.div (.num 2 1) (.add (.num 1 1) (.mul (.num 2 1) (.var 1)))))) (.var 1),
  .neg (.div (.num 1 1) (.var 1)),
  .add (.sub (.num 1 1) (.div (.num 1 1) (.var 1))) (.div (.num 1 1) (.add (.num 1 1) (.var 1))),
  .div (.num 1 1) (.add (.num 1 1) (.var 1)),
  .neg (.div (.add (.num 3 1) (.mul (.num 2 1) (.var 1))) (.mul (.add (.num 1 1) (.var 1)) (.sqrt (.add (.num 3 1) (.mul (.mul (.num 4 1) (.var 1)) (.add (.num 2 1) (.var 1))))))),
  .div (.sqrt (.mul (.var 1) (.add (.num 2 1) (.var 1)))) (.add (.num 1 1) (.var 1)),
  .div (.sqrt (.div (.mul (.mul (.var 1) (.add (.num 1 1) (.var 1))) (.add (.num 3 1) (.mul (.num 2 1) (.var 1)))) (.add (.num 1 1) (.mul (.num 2 1) (.var 1))))) (.add (.num 1 1) (.var 1)),
  .div (.add (.neg (.sqrt (.mul (.mul (.add (.num 1 1) (.var 1)) (.add (.num 1 1) (.mul (.num 2 1) (.var 1)))) (.add (.num 3 1) (.mul (.num 2 1) (.var 1)))))) (.mul (.mul (.num 2 1) (.var 1)) (.sqrt (.add (.add (.num 2 1) (.var 1)) (.div (.num 1 1) (.add (.num 1 1) (.mul (.num 2 1) (.var 1)))))))) (.mul (.add (.num 1 1) (.var 1)) (.sqrt (.add (.num 3 1) (.mul (.num 2 1) (.var 1))))),
  .div (.sqrt (.add (.neg (.num 3 1)) (.mul (.mul (.num 4 1) (.var 1)) (.add (.num 1 1) (.var 1))))) (.add (.num 1 1) (.mul (.num 2 1) (.var 1))),
  .neg (.div (.sqrt (.add (.num 3 1) (.mul (.mul (.num 4 1) (.var 1)) (.add (.num 2 1) (.var 1))))) (.mul (.add (.num 1 1) (.var 1)) (.add (.num 1 1) (.mul (.num 2 1) (.var 1))))),
  .div (.num 1 1) (.add (.add (.num 1 1) (.mul (.num 3 1) (.var 1))) (.mul (.num 2 1) (.pow (.var 1) 2))),
  .neg (.div (.num 1 1) (.add (.num 1 1) (.var 1))),
  .div (.add (.div (.num 1 1) (.sqrt (.div (.mul (.mul (.var 1) (.add (.num 1 1) (.var 1))) (.add (.num 1 1) (.mul (.num 2 1) (.var 1)))) (.add (.neg (.num 1 1)) (.mul (.num 2 1) (.var 1)))))) (.div (.num 1 1) (.sqrt (.div (.mul (.var 1) (.add (.num 1 1) (.var 1))) (.add (.neg (.num 1 1)) (.mul (.num 4 1) (.pow (.var 1) 2))))))) (.num 2 1),
  .div (.num 1 1) (.var 1),
  .div (.num 1 1) (.add (.var 1) (.mul (.num 2 1) (.pow (.var 1) 2)))]

/-- The factors of class `QSTZ`. -/
def factors_QSTZ : List Ex := [
  .num 1 1,
  .div (.mul (.neg (.num 2 1)) (.sqrt (.mul (.var 1) (.add (.num 1 1) (.var 1))))) (.add (.num 1 1) (.mul (.num 2 1) (.var 1))),
  .div (.num 1 1) (.add (.num 1 1) (.mul (.num 2 1) (.var 1))),
  .neg (.num 1 1),
  .sqrt (.div (.add (.add (.neg (.num 1 1)) (.var 1)) (.mul (.num 2 1) (.pow (.var 1) 2))) (.mul (.var 1) (.add (.num 1 1) (.mul (.num 2 1) (.var 1))))),
  .neg (.div (.num 1 1) (.sqrt (.mul (.var 1) (.add (.num 1 1) (.mul (.num 2 1) (.var 1)))))),
  .div (.add (.num 3 1) (.mul (.num 2 1) (.var 1))) (.sqrt (.mul (.add (.num 1 1) (.div (.num 1 1) (.var 1))) (.add (.add (.num 3 1) (.mul (.num 8 1) (.var 1))) (.mul (.num 4 1) (.pow (.var 1) 2))))),
  .neg (.div (.num 1 1) (.sqrt (.add (.add (.num 1 1) (.mul (.num 3 1) (.var 1))) (.mul (.num 2 1) (.pow (.var 1) 2))))),
  .mul (.neg (.num 2 1)) (.sqrt (.div (.add (.neg (.num 1 1)) (.pow (.var 1) 2)) (.add (.neg (.num 1 1)) (.mul (.num 4 1) (.pow (.var 1) 2))))),
  .div (.sqrt (.num 3 1)) (.sqrt (.add (.neg (.num 1 1)) (.mul (.num 4 1) (.pow (.var 1) 2)))),
  .neg (.div (.sqrt (.add (.add (.neg (.num 3 1)) (.mul (.num 4 1) (.var 1))) (.mul (.num 4 1) (.pow (.var 1) 2)))) (.add (.num 1 1) (.mul (.num 2 1) (.var 1)))),
  .div (.num 2 1) (.add (.num 1 1) (.mul (.num 2 1) (.var 1))),
  .div (.mul (.mul (.var 1) (.sqrt (.div (.add (.num 4 1) (.mul (.num 4 1) (.var 1))) (.add (.var 1) (.mul (.num 2 1) (.pow (.var 1) 2)))))) (.sub (.sub (.sub (.mul (.sqrt (.div (.add (.add (.num 2 1) (.mul (.num 3 1) (.var 1))) (.pow (.var 1) 2)) (.add (.num 3 1) (.mul (.num 2 1) (.var 1))))) (.add (.add (.num 3 1) (.mul (.num 8 1) (.var 1))) (.mul (.num 4 1) (.pow (.var 1) 2)))) (.mul (.mul (.var 1) (.sqrt (.div (.add (.add (.num 2 1) (.mul (.num 3 1) (.var 1))) (.pow (.var 1) 2)) (.add (.num 3 1) (.mul (.num 2 1) (.var 1)))))) (.add (.add (.num 3 1) (.mul (.num 8 1) (.var 1))) (.mul (.num 4 1) (.pow (.var 1) 2))))) (.mul (.num 7 1) (.sqrt (.add (.add (.add (.num 6 1) (.mul (.num 13 1) (.var 1))) (.mul (.num 9 1) (.pow (.var 1) 2))) (.mul (.num 2 1) (.pow (.var 1) 3)))))) (.mul (.mul (.num 8 1) (.var 1)) (.sqrt (.add (.add (.add (.num 6 1) (.mul (.num 13 1) (.var 1))) (.mul (.num 9 1) (.pow (.var 1) 2))) (.mul (.num 2 1) (.pow (.var 1) 3))))))) (.mul (.pow (.add (.num 3 1) (.mul (.num 2 1) (.var 1))) 2) (.add (.add (.num 2 1) (.mul (.num 3 1) (.var 1))) (.pow (.var 1) 2))),
  .div (.sqrt (.num 3 1)) (.sqrt (.add (.add (.num 3 1) (.mul (.num 8 1) (.var 1))) (.mul (.num 4 1) (.pow (.var 1) 2)))),
  .neg (.div (.num 1 1) (.add (.num 1 1) (.mul (.num 2 1) (.var 1)))),
  .div (.num 1 1) (.sqrt (.mul (.var 1) (.add (.num 1 1) (.mul (.num 2 1) (.var 1))))),
  .div (.add (.add (.neg (.sqrt (.add (.num 2 1) (.div (.num 1 1) (.var 1))))) (.sqrt (.mul (.var 1) (.add (.num 1 1) (.mul (.num 2 1) (.var 1)))))) (.mul (.num 2 1) (.sqrt (.mul (.pow (.var 1) 3) (.add (.num 1 1) (.mul (.num 2 1) (.var 1))))))) (.mul (.add (.num 1 1) (.mul (.num 2 1) (.var 1))) (.sqrt (.add (.add (.neg (.num 1 1)) (.var 1)) (.mul (.num 2 1) (.pow (.var 1) 2))))),
  .div (.num 1 1) (.sqrt (.mul (.add (.num 1 1) (.var 1)) (.add (.num 1 1) (.mul (.num 2 1) (.var 1))))),
  .div (.add (.add (.sqrt (.div (.var 1) (.add (.num 1 1) (.var 1)))) (.mul (.sqrt (.div (.var 1) (.add (.num 1 1) (.var 1)))) (.add (.num 1 1) (.mul (.num 2 1) (.var 1))))) (.mul (.sqrt (.mul (.var 1) (.add (.num 1 1) (.var 1)))) (.add (.num 1 1) (.mul (.num 2 1) (.var 1))))) (.mul (.add (.num 1 1) (.var 1)) (.sqrt (.add (.add (.num 3 1) (.mul (.num 8 1) (.var 1))) (.mul (.num 4 1) (.pow (.var 1) 2))))),
  .neg (.div (.sqrt (.num 3 1)) (.sqrt (.add (.neg (.num 1 1)) (.mul (.num 4 1) (.pow (.var 1) 2))))),
  .div (.mul (.neg (.num 2 1)) (.add (.neg (.num 1 1)) (.pow (.var 1) 2))) (.sqrt (.add (.sub (.num 1 1) (.mul (.num 5 1) (.pow (.var 1) 2))) (.mul (.num 4 1) (.pow (.var 1) 4)))),
  .div (.neg (.num 2 1)) (.add (.num 1 1) (.mul (.num 2 1) (.var 1))),
  .neg (.div (.mul (.sqrt (.mul (.var 1) (.add (.neg (.num 1 1)) (.mul (.num 2 1) (.var 1))))) (.add (.add (.add (.mul (.num 3 1) (.sqrt (.mul (.var 1) (.add (.num 3 1) (.mul (.num 2 1) (.var 1)))))) (.mul (.mul (.num 4 1) (.var 1)) (.sqrt (.mul (.var 1) (.add (.num 3 1) (.mul (.num 2 1) (.var 1))))))) (.sqrt (.mul (.pow (.var 1) 3) (.add (.num 3 1) (.mul (.num 2 1) (.var 1)))))) (.mul (.num 2 1) (.sqrt (.mul (.pow (.var 1) 5) (.add (.num 3 1) (.mul (.num 2 1) (.var 1)))))))) (.mul (.mul (.var 1) (.add (.num 1 1) (.var 1))) (.add (.add (.num 3 1) (.mul (.num 8 1) (.var 1))) (.mul (.num 4 1) (.pow (.var 1) 2))))),
  .neg (.div (.mul (.sqrt (.num 3 1)) (.add (.add (.mul (.num 3 1) (.sqrt (.mul (.var 1) (.add (.num 1 1) (.var 1))))) (.mul (.num 5 1) (.sqrt (.mul (.pow (.var 1) 3) (.add (.num 1 1) (.var 1)))))) (.mul (.num 2 1) (.sqrt (.mul (.pow (.var 1) 5) (.add (.num 1 1) (.var 1))))))) (.sqrt (.mul (.mul (.var 1) (.add (.num 1 1) (.mul (.num 2 1) (.var 1)))) (.pow (.add (.add (.num 3 1) (.mul (.num 5 1) (.var 1))) (.mul (.num 2 1) (.pow (.var 1) 2))) 3)))),
  .neg (.div (.add (.add (.mul (.num 9 1) (.sqrt (.div (.var 1) (.add (.num 3 1) (.mul (.num 2 1) (.var 1)))))) (.sqrt (.mul (.var 1) (.add (.num 3 1) (.mul (.num 2 1) (.var 1)))))) (.mul (.mul (.num 2 1) (.var 1)) (.add (.mul (.num 3 1) (.sqrt (.div (.var 1) (.add (.num 3 1) (.mul (.num 2 1) (.var 1)))))) (.sqrt (.mul (.var 1) (.add (.num 3 1) (.mul (.num 2 1) (.var 1)))))))) (.mul (.add (.num 3 1) (.mul (.num 2 1) (.var 1))) (.sqrt (.add (.add (.num 2 1) (.mul (.num 5 1) (.var 1))) (.mul (.num 2 1) (.pow (.var 1) 2)))))),
  .div (.num 1 1) (.sqrt (.add (.add (.num 1 1) (.mul (.num 3 1) (.var 1))) (.mul (.num 2 1) (.pow (.var 1) 2)))),
  .neg (.div (.sub (.sub (.neg (.div (.sqrt (.div (.mul (.var 1) (.add (.num 1 1) (.mul (.num 2 1) (.var 1)))) (.add (.num 3 1) (.mul (.num 2 1) (.var 1))))) (.add (.num 1 1) (.var 1)))) (.mul (.var 1) (.sqrt (.div (.mul (.var 1) (.add (.num 1 1) (.mul (.num 2 1) (.var 1)))) (.mul (.pow (.add (.num 1 1) (.var 1)) 2) (.add (.num 3 1) (.mul (.num 2 1) (.var 1)))))))) (.mul (.num 2 1) (.sqrt (.div (.var 1) (.add (.add (.num 3 1) (.mul (.num 8 1) (.var 1))) (.mul (.num 4 1) (.pow (.var 1) 2))))))) (.sqrt (.add (.num 1 1) (.var 1)))),
  .div (.sqrt (.add (.neg (.num 1 1)) (.pow (.var 1) 2))) (.var 1),
  .div (.sqrt (.div (.add (.neg (.num 1 1)) (.mul (.num 2 1) (.var 1))) (.add (.num 1 1) (.mul (.num 2 1) (.var 1))))) (.var 1),
  .neg (.div (.num 1 1) (.var 1)),
  .div (.add (.add (.neg (.num 1 1)) (.var 1)) (.pow (.var 1) 2)) (.mul (.var 1) (.add (.num 1 1) (.var 1))),
  .div (.num 1 1) (.add (.num 1 1) (.var 1)),
  .div (.mul (.sqrt (.div (.add (.neg (.num 1 1)) (.mul (.num 2 1) (.var 1))) (.add (.num 3 1) (.mul (.num 2 1) (.var 1))))) (.sub (.add (.sqrt (.div (.add (.neg (.num 1 1)) (.mul (.num 2 1) (.var 1))) (.add (.add (.num 1 1) (.mul (.num 3 1) (.var 1))) (.mul (.num 2 1) (.pow (.var 1) 2))))) (.mul (.var 1) (.sqrt (.div (.add (.neg (.num 1 1)) (.mul (.num 2 1) (.var 1))) (.add (.add (.num 1 1) (.mul (.num 3 1) (.var 1))) (.mul (.num 2 1) (.pow (.var 1) 2))))))) (.mul (.num 2 1) (.sqrt (.div (.add (.add (.num 1 1) (.mul (.num 3 1) (.var 1))) (.mul (.num 2 1) (.pow (.var 1) 2))) (.add (.neg (.num 1 1)) (.mul (.num 2 1) (.var 1)))))))) (.hpow (.add (.num 1 1) (.var 1)) 1),
  .neg (.mul (.sqrt (.add (.num 1 1) (.var 1))) (.sub (.sub (.mul (.neg (.num 2 1)) (.sqrt (.div (.mul (.var 1) (.pow (.add (.num 1 1) (.mul (.num 2 1) (.var 1))) 2)) (.mul (.mul (.pow (.add (.num 1 1) (.var 1)) 3) (.add (.num 2 1) (.var 1))) (.pow (.add (.num 3 1) (.mul (.num 2 1) (.var 1))) 2))))) (.div (.mul (.add (.num 1 1) (.mul (.num 2 1) (.var 1))) (.sqrt (.div (.var 1) (.add (.add (.num 2 1) (.mul (.num 3 1) (.var 1))) (.pow (.var 1) 2))))) (.add (.num 3 1) (.mul (.num 2 1) (.var 1))))) (.div (.mul (.num 3 1) (.sqrt (.div (.var 1) (.add (.add (.num 2 1) (.mul (.num 3 1) (.var 1))) (.pow (.var 1) 2))))) (.add (.add (.num 3 1) (.mul (.num 5 1) (.var 1))) (.mul (.num 2 1) (.pow (.var 1) 2)))))),
  .sqrt (.div (.sub (.add (.num 3 1) (.var 1)) (.mul (.num 2 1) (.pow (.var 1) 2))) (.sub (.var 1) (.mul (.num 2 1) (.pow (.var 1) 2)))),
  .div (.mul (.sqrt (.num 3 1)) (.sqrt (.div (.add (.neg (.num 1 1)) (.var 1)) (.add (.neg (.num 1 1)) (.mul (.num 2 1) (.var 1)))))) (.var 1),
  .neg (.div (.sqrt (.num 3 1)) (.sqrt (.mul (.var 1) (.add (.neg (.num 1 1)) (.mul (.num 2 1) (.var 1)))))),
  .div (.add (.add (.neg (.num 4 1)) (.var 1)) (.mul (.num 2 1) (.pow (.var 1) 2))) (.sqrt (.mul (.mul (.var 1) (.add (.num 1 1) (.var 1))) (.add (.neg (.num 1 1)) (.mul (.num 4 1) (.pow (.var 1) 2))))),
  .div (.add (.add (.sub (.mul (.num 3 1) (.sqrt (.div (.mul (.mul (.var 1) (.add (.num 1 1) (.var 1))) (.add (.num 3 1) (.mul (.num 2 1) (.var 1)))) (.add (.neg (.num 1 1)) (.mul (.num 4 1) (.pow (.var 1) 2)))))) (.mul (.mul (.num 10 1) (.var 1)) (.sqrt (.div (.mul (.mul (.var 1) (.add (.num 1 1) (.var 1))) (.add (.num 3 1) (.mul (.num 2 1) (.var 1)))) (.add (.neg (.num 1 1)) (.mul (.num 4 1) (.pow (.var 1) 2))))))) (.mul (.mul (.num 8 1) (.pow (.var 1) 2)) (.sqrt (.div (.mul (.mul (.var 1) (.add (.num 1 1) (.var 1))) (.add (.num 3 1) (.mul (.num 2 1) (.var 1)))) (.add (.neg (.num 1 1)) (.mul (.num 4 1) (.pow (.var 1) 2))))))) (.mul (.mul (.num 9 1) (.add (.num 1 1) (.var 1))) (.sqrt (.div (.mul (.var 1) (.add (.add (.neg (.num 3 1)) (.mul (.num 4 1) (.var 1))) (.mul (.num 4 1) (.pow (.var 1) 2)))) (.add (.add (.num 1 1) (.mul (.num 3 1) (.var 1))) (.mul (.num 2 1) (.pow (.var 1) 2))))))) (.mul (.mul (.mul (.num 2 1) (.var 1)) (.hpow (.add (.num 1 1) (.var 1)) 1)) (.add (.num 3 1) (.mul (.num 2 1) (.var 1)))),
  .div (.sub (.add (.add (.sub (.sub (.mul (.num 3 1) (.sqrt (.div (.mul (.var 1) (.add (.num 3 1) (.mul (.num 2 1) (.var 1)))) (.add (.num 1 1) (.mul (.num 2 1) (.var 1)))))) (.mul (.num 5 1) (.sqrt (.div (.mul (.pow (.var 1) 3) (.add (.num 3 1) (.mul (.num 2 1) (.var 1)))) (.add (.num 1 1) (.mul (.num 2 1) (.var 1))))))) (.mul (.num 4 1) (.sqrt (.div (.mul (.pow (.var 1) 5) (.add (.num 3 1) (.mul (.num 2 1) (.var 1)))) (.add (.num 1 1) (.mul (.num 2 1) (.var 1))))))) (.mul (.num 4 1) (.sqrt (.div (.mul (.pow (.var 1) 7) (.add (.num 3 1) (.mul (.num 2 1) (.var 1)))) (.add (.num 1 1) (.mul (.num 2 1) (.var 1))))))) (.sqrt (.mul (.pow (.var 1) 3) (.add (.add (.num 3 1) (.mul (.num 8 1) (.var 1))) (.mul (.num 4 1) (.pow (.var 1) 2)))))) (.mul (.num 2 1) (.sqrt (.mul (.pow (.var 1) 5) (.add (.add (.num 3 1) (.mul (.num 8 1) (.var 1))) (.mul (.num 4 1) (.pow (.var 1) 2))))))) (.mul (.mul (.var 1) (.add (.num 3 1) (.mul (.num 2 1) (.var 1)))) (.sqrt (.mul (.var 1) (.add (.add (.neg (.num 1 1)) (.var 1)) (.mul (.num 2 1) (.pow (.var 1) 2)))))),
  .neg (.mul (.sqrt (.add (.num 1 1) (.var 1))) (.add (.sub (.mul (.sub (.num 3 1) (.mul (.num 2 1) (.var 1))) (.sqrt (.div (.mul (.var 1) (.add (.num 1 1) (.mul (.num 2 1) (.var 1)))) (.mul (.pow (.add (.num 1 1) (.var 1)) 2) (.pow (.add (.num 3 1) (.mul (.num 2 1) (.var 1))) 3))))) (.div (.mul (.mul (.num 4 1) (.add (.neg (.num 3 1)) (.mul (.num 4 1) (.var 1)))) (.sqrt (.div (.var 1) (.add (.add (.num 3 1) (.mul (.num 8 1) (.var 1))) (.mul (.num 4 1) (.pow (.var 1) 2)))))) (.add (.add (.num 3 1) (.mul (.num 5 1) (.var 1))) (.mul (.num 2 1) (.pow (.var 1) 2))))) (.div (.sub (.num 9 1) (.mul (.num 18 1) (.var 1))) (.mul (.add (.add (.num 3 1) (.mul (.num 5 1) (.var 1))) (.mul (.num 2 1) (.pow (.var 1) 2))) (.sqrt (.mul (.var 1) (.add (.add (.num 3 1) (.mul (.num 8 1) (.var 1))) (.mul (.num 4 1) (.pow (.var 1) 2))))))))),
  .div (.sqrt (.num 3 1)) (.sqrt (.mul (.add (.num 1 1) (.var 1)) (.add (.num 3 1) (.mul (.num 2 1) (.var 1))))),
  .div (.mul (.neg (.num 1 2)) (.mul (.mul (.sqrt (.num 3 1)) (.sqrt (.div (.add (.add (.neg (.num 1 1)) (.var 1)) (.mul (.num 2 1) (.pow (.var 1) 2))) (.add (.num 2 1) (.var 1))))) (.sub (.add (.add (.mul (.num 9 1) (.sqrt (.div (.add (.add (.num 3 1) (.mul (.num 5 1) (.var 1))) (.mul (.num 2 1) (.pow (.var 1) 2))) (.add (.neg (.num 1 1)) (.mul (.num 2 1) (.var 1)))))) (.mul (.mul (.num 20 1) (.var 1)) (.sqrt (.div (.add (.add (.num 3 1) (.mul (.num 5 1) (.var 1))) (.mul (.num 2 1) (.pow (.var 1) 2))) (.add (.neg (.num 1 1)) (.mul (.num 2 1) (.var 1))))))) (.mul (.mul (.num 4 1) (.pow (.var 1) 2)) (.sqrt (.div (.add (.add (.num 3 1) (.mul (.num 5 1) (.var 1))) (.mul (.num 2 1) (.pow (.var 1) 2))) (.add (.neg (.num 1 1)) (.mul (.num 2 1) (.var 1))))))) (.mul (.num 3 1) (.sqrt (.add (.add (.add (.neg (.num 3 1)) (.var 1)) (.mul (.num 8 1) (.pow (.var 1) 2))) (.mul (.num 4 1) (.pow (.var 1) 3)))))))) (.pow (.add (.add (.num 3 1) (.mul (.num 5 1) (.var 1))) (.mul (.num 2 1) (.pow (.var 1) 2))) 2),
  .mul (.neg (.num 1 2)) (.mul (.sqrt (.add (.num 1 1) (.var 1))) (.sub (.sub (.sub (.mul (.neg (.num 18 1)) (.sqrt (.div (.mul (.var 1) (.pow (.add (.num 1 1) (.mul (.num 2 1) (.var 1))) 2)) (.mul (.mul (.pow (.add (.num 3 1) (.mul (.num 2 1) (.var 1))) 3) (.add (.num 5 1) (.mul (.num 2 1) (.var 1)))) (.pow (.add (.add (.num 2 1) (.mul (.num 3 1) (.var 1))) (.pow (.var 1) 2)) 2))))) (.div (.mul (.mul (.num 2 1) (.add (.num 1 1) (.mul (.num 2 1) (.var 1)))) (.sqrt (.div (.var 1) (.add (.add (.num 15 1) (.mul (.num 16 1) (.var 1))) (.mul (.num 4 1) (.pow (.var 1) 2)))))) (.add (.num 2 1) (.var 1)))) (.div (.mul (.mul (.num 12 1) (.add (.num 1 1) (.mul (.num 2 1) (.var 1)))) (.sqrt (.div (.var 1) (.add (.add (.num 15 1) (.mul (.num 16 1) (.var 1))) (.mul (.num 4 1) (.pow (.var 1) 2)))))) (.add (.add (.num 6 1) (.mul (.num 7 1) (.var 1))) (.mul (.num 2 1) (.pow (.var 1) 2))))) (.div (.mul (.num 24 1) (.sqrt (.div (.var 1) (.add (.add (.num 15 1) (.mul (.num 16 1) (.var 1))) (.mul (.num 4 1) (.pow (.var 1) 2)))))) (.add (.add (.add (.num 6 1) (.mul (.num 13 1) (.var 1))) (.mul (.num 9 1) (.pow (.var 1) 2))) (.mul (.num 2 1) (.pow (.var 1) 3)))))),
  .div (.sqrt (.div (.mul (.var 1) (.add (.add (.num 3 1) (.mul (.num 5 1) (.var 1))) (.mul (.num 2 1) (.pow (.var 1) 2)))) (.add (.num 1 1) (.mul (.num 2 1) (.var 1))))) (.add (.num 1 1) (.var 1)),
  .div (.mul (.sqrt (.add (.num 3 1) (.mul (.num 2 1) (.var 1)))) (.add (.neg (.div (.num 1 1) (.sqrt (.div (.mul (.add (.num 1 1) (.var 1)) (.add (.num 3 1) (.mul (.num 2 1) (.var 1)))) (.add (.num 2 1) (.mul (.num 4 1) (.var 1))))))) (.div (.mul (.mul (.num 2 1) (.sqrt (.num 2 1))) (.var 1)) (.sqrt (.mul (.add (.num 1 1) (.var 1)) (.add (.add (.num 3 1) (.mul (.num 8 1) (.var 1))) (.mul (.num 4 1) (.pow (.var 1) 2)))))))) (.sqrt (.num 2 1)),
  .div (.sqrt (.add (.add (.neg (.num 3 1)) (.mul (.num 4 1) (.var 1))) (.mul (.num 4 1) (.pow (.var 1) 2)))) (.add (.num 1 1) (.mul (.num 2 1) (.var 1))),
  .neg (.div (.sqrt (.div (.add (.num 3 1) (.mul (.num 2 1) (.var 1))) (.add (.num 1 1) (.mul (.num 2 1) (.var 1))))) (.add (.num 1 1) (.var 1))),
  .div (.add (.mul (.num 2 1) (.sqrt (.div (.var 1) (.add (.num 2 1) (.var 1))))) (.sqrt (.div (.pow (.var 1) 3) (.add (.num 2 1) (.var 1))))) (.add (.num 1 1) (.var 1)),
  .div (.num 1 1) (.add (.add (.num 1 1) (.mul (.num 3 1) (.var 1))) (.mul (.num 2 1) (.pow (.var 1) 2))),
  .neg (.div (.num 1 1) (.add (.num 1 1) (.var 1))),
  .div (.num 1 1) (.sqrt (.div (.mul (.var 1) (.add (.num 1 1) (.mul (.num 2 1) (.var 1)))) (.add (.add (.neg (.num 3 1)) (.var 1)) (.mul (.num 2 1) (.pow (.var 1) 2))))),
  .neg (.div (.sqrt (.add (.add (.num 9 1) (.mul (.num 15 1) (.var 1))) (.mul (.num 6 1) (.pow (.var 1) 2)))) (.mul (.add (.num 1 1) (.var 1)) (.add (.num 1 1) (.mul (.num 2 1) (.var 1))))),
  .div (.sqrt (.mul (.mul (.var 1) (.add (.num 3 1) (.mul (.num 2 1) (.var 1)))) (.add (.add (.neg (.num 2 1)) (.mul (.num 3 1) (.var 1))) (.mul (.num 2 1) (.pow (.var 1) 2))))) (.add (.add (.num 1 1) (.mul (.num 3 1) (.var 1))) (.mul (.num 2 1) (.pow (.var 1) 2))),
  .div (.sqrt (.num 3 1)) (.mul (.sqrt (.mul (.var 1) (.add (.num 1 1) (.var 1)))) (.add (.num 1 1) (.mul (.num 2 1) (.var 1)))),
  .div (.mul (.neg (.num 4 1)) (.sqrt (.mul (.mul (.var 1) (.add (.num 2 1) (.var 1))) (.add (.add (.num 3 1) (.mul (.num 5 1) (.var 1))) (.mul (.num 2 1) (.pow (.var 1) 2)))))) (.mul (.add (.num 1 1) (.var 1)) (.add (.add (.num 3 1) (.mul (.num 8 1) (.var 1))) (.mul (.num 4 1) (.pow (.var 1) 2)))),
  .div (.mul (.add (.num 5 1) (.mul (.num 2 1) (.var 1))) (.sqrt (.div (.mul (.var 1) (.add (.num 1 1) (.var 1))) (.add (.add (.num 15 1) (.mul (.num 16 1) (.var 1))) (.mul (.num 4 1) (.pow (.var 1) 2)))))) (.add (.num 1 1) (.var 1)),
  .div (.mul (.mul (.sqrt (.num 3 1)) (.sqrt (.mul (.var 1) (.add (.num 1 1) (.var 1))))) (.add (.sub (.add (.add (.sub (.sqrt (.div (.mul (.mul (.pow (.add (.num 2 1) (.var 1)) 2) (.add (.num 3 1) (.mul (.num 2 1) (.var 1)))) (.pow (.add (.add (.num 1 1) (.mul (.num 3 1) (.var 1))) (.mul (.num 2 1) (.pow (.var 1) 2))) 3)) (.var 1))) (.mul (.mul (.mul (.num 4 1) (.hpow (.add (.num 1 1) (.var 1)) 1)) (.sqrt (.div (.mul (.var 1) (.add (.num 1 1) (.mul (.num 2 1) (.var 1)))) (.add (.num 3 1) (.mul (.num 2 1) (.var 1)))))) (.add (.add (.num 2 1) (.mul (.num 5 1) (.var 1))) (.mul (.num 2 1) (.pow (.var 1) 2))))) (.div (.mul (.hpow (.add (.num 1 1) (.var 1)) 1) (.add (.add (.num 2 1) (.mul (.num 5 1) (.var 1))) (.mul (.num 2 1) (.pow (.var 1) 2)))) (.sqrt (.div (.mul (.var 1) (.add (.num 3 1) (.mul (.num 2 1) (.var 1)))) (.add (.num 1 1) (.mul (.num 2 1) (.var 1))))))) (.mul (.mul (.num 3 1) (.add (.add (.num 2 1) (.mul (.num 3 1) (.var 1))) (.pow (.var 1) 2))) (.sqrt (.div (.mul (.mul (.pow (.sub (.num 1 1) (.mul (.num 2 1) (.var 1))) 2) (.var 1)) (.add (.num 1 1) (.mul (.num 2 1) (.var 1)))) (.add (.add (.num 3 1) (.mul (.num 5 1) (.var 1))) (.mul (.num 2 1) (.pow (.var 1) 2))))))) (.mul (.mul (.num 5 1) (.sqrt (.div (.mul (.var 1) (.add (.num 1 1) (.mul (.num 2 1) (.var 1)))) (.add (.add (.num 3 1) (.mul (.num 5 1) (.var 1))) (.mul (.num 2 1) (.pow (.var 1) 2)))))) (.add (.add (.add (.num 2 1) (.mul (.num 7 1) (.var 1))) (.mul (.num 7 1) (.pow (.var 1) 2))) (.mul (.num 2 1) (.pow (.var 1) 3))))) (.mul (.mul (.mul (.num 2 1) (.var 1)) (.sqrt (.div (.mul (.var 1) (.add (.num 1 1) (.mul (.num 2 1) (.var 1)))) (.add (.add (.num 3 1) (.mul (.num 5 1) (.var 1))) (.mul (.num 2 1) (.pow (.var 1) 2)))))) (.add (.add (.add (.num 2 1) (.mul (.num 7 1) (.var 1))) (.mul (.num 7 1) (.pow (.var 1) 2))) (.mul (.num 2 1) (.pow (.var 1) 3)))))) (.mul (.mul (.num 2 1) (.add (.num 1 1) (.mul (.num 2 1) (.var 1)))) (.pow (.add (.add (.num 2 1) (.mul (.num 3 1) (.var 1))) (.pow (.var 1) 2)) 2)),
  .neg (.div (.mul (.mul (.sqrt (.num 3 1)) (.sqrt (.add (.num 1 1) (.var 1)))) (.add (.add (.add (.sub (.mul (.num 7 1) (.sqrt (.div (.add (.num 5 1) (.mul (.num 2 1) (.var 1))) (.add (.num 3 1) (.mul (.num 2 1) (.var 1)))))) (.mul (.mul (.num 4 1) (.pow (.var 1) 3)) (.sqrt (.div (.add (.num 5 1) (.mul (.num 2 1) (.var 1))) (.add (.num 3 1) (.mul (.num 2 1) (.var 1))))))) (.sqrt (.add (.add (.num 15 1) (.mul (.num 16 1) (.var 1))) (.mul (.num 4 1) (.pow (.var 1) 2))))) (.mul (.mul (.num 2 1) (.pow (.var 1) 2)) (.add (.mul (.neg (.num 5 1)) (.sqrt (.div (.add (.num 5 1) (.mul (.num 2 1) (.var 1))) (.add (.num 3 1) (.mul (.num 2 1) (.var 1)))))) (.sqrt (.add (.add (.num 15 1) (.mul (.num 16 1) (.var 1))) (.mul (.num 4 1) (.pow (.var 1) 2))))))) (.mul (.var 1) (.add (.mul (.neg (.num 2 1)) (.sqrt (.div (.add (.num 5 1) (.mul (.num 2 1) (.var 1))) (.add (.num 3 1) (.mul (.num 2 1) (.var 1)))))) (.mul (.num 3 1) (.sqrt (.add (.add (.num 15 1) (.mul (.num 16 1) (.var 1))) (.mul (.num 4 1) (.pow (.var 1) 2))))))))) (.mul (.hpow (.add (.num 5 1) (.mul (.num 2 1) (.var 1))) 1) (.add (.add (.num 2 1) (.mul (.num 3 1) (.var 1))) (.pow (.var 1) 2)))),
  .div (.mul (.sqrt (.mul (.add (.num 1 1) (.var 1)) (.add (.num 1 1) (.mul (.num 2 1) (.var 1))))) (.add (.add (.add (.mul (.num 15 1) (.sqrt (.div (.add (.num 2 1) (.var 1)) (.add (.add (.num 1 1) (.mul (.num 3 1) (.var 1))) (.mul (.num 2 1) (.pow (.var 1) 2)))))) (.mul (.num 9 1) (.sqrt (.div (.add (.add (.num 2 1) (.mul (.num 5 1) (.var 1))) (.mul (.num 2 1) (.pow (.var 1) 2))) (.add (.num 1 1) (.var 1)))))) (.mul (.num 6 1) (.sqrt (.add (.add (.add (.num 2 1) (.mul (.num 7 1) (.var 1))) (.mul (.num 7 1) (.pow (.var 1) 2))) (.mul (.num 2 1) (.pow (.var 1) 3)))))) (.mul (.var 1) (.sqrt (.add (.add (.add (.num 2 1) (.mul (.num 7 1) (.var 1))) (.mul (.num 7 1) (.pow (.var 1) 2))) (.mul (.num 2 1) (.pow (.var 1) 3))))))) (.mul (.hpow (.add (.num 2 1) (.var 1)) 1) (.add (.add (.num 15 1) (.mul (.num 11 1) (.var 1))) (.mul (.num 2 1) (.pow (.var 1) 2)))),
  .div (.add (.sqrt (.div (.add (.neg (.num 1 1)) (.mul (.num 2 1) (.var 1))) (.add (.num 1 1) (.mul (.num 2 1) (.var 1))))) (.sqrt (.add (.neg (.num 1 1)) (.mul (.num 4 1) (.pow (.var 1) 2))))) (.mul (.num 2 1) (.sqrt (.mul (.var 1) (.add (.num 1 1) (.var 1))))),
  .div (.num 1 1) (.var 1),
  .div (.num 1 1) (.add (.var 1) (.mul (.num 2 1) (.pow (.var 1) 2))),
  .div (.add (.sqrt (.div (.add (.neg (.num 1 1)) (.var 1)) (.var 1))) (.sqrt (.mul (.add (.neg (.num 1 1)) (.var 1)) (.var 1)))) (.sqrt (.mul (.var 1) (.add (.num 1 1) (.var 1)))),
  .div (.add (.add (.sqrt (.mul (.mul (.mul (.var 1) (.add (.num 1 1) (.var 1))) (.add (.neg (.num 1 1)) (.mul (.num 2 1) (.var 1)))) (.add (.num 1 1) (.mul (.num 2 1) (.var 1))))) (.sqrt (.div (.mul (.var 1) (.add (.neg (.num 1 1)) (.mul (.num 2 1) (.var 1)))) (.add (.add (.num 1 1) (.mul (.num 3 1) (.var 1))) (.mul (.num 2 1) (.pow (.var 1) 2)))))) (.sqrt (.div (.mul (.var 1) (.add (.neg (.num 1 1)) (.mul (.num 4 1) (.pow (.var 1) 2)))) (.add (.num 1 1) (.var 1))))) (.sqrt (.mul (.mul (.var 1) (.add (.num 1 1) (.mul (.num 2 1) (.var 1)))) (.add (.add (.num 3 1) (.mul (.num 5 1) (.var 1))) (.mul (.num 2 1) (.pow (.var 1) 2))))),
  .div (.sqrt (.num 3 1)) (.sqrt (.mul (.var 1) (.add (.neg (.num 1 1)) (.mul (.num 2 1) (.var 1))))),
  .div (.sqrt (.num 3 1)) (.mul (.var 1) (.sqrt (.add (.neg (.num 1 1)) (.mul (.num 4 1) (.pow (.var 1) 2))))),
  .div (.mul (.num 2 1) (.add (.add (.sub (.sqrt (.neg (.div (.add (.num 1 1) (.var 1)) (.sub (.add (.num 1 1) (.var 1)) (.mul (.num 2 1) (.pow (.var 1) 2)))))) (.mul (.mul (.num 3 1) (.var 1)) (.sqrt (.neg (.div (.add (.num 1 1) (.var 1)) (.sub (.add (.num 1 1) (.var 1)) (.mul (.num 2 1) (.pow (.var 1) 2)))))))) (.mul (.mul (.num 2 1) (.pow (.var 1) 2)) (.sqrt (.neg (.div (.add (.num 1 1) (.var 1)) (.sub (.add (.num 1 1) (.var 1)) (.mul (.num 2 1) (.pow (.var 1) 2)))))))) (.mul (.num 3 1) (.sqrt (.div (.add (.neg (.num 1 1)) (.pow (.var 1) 2)) (.add (.num 1 1) (.mul (.num 2 1) (.var 1)))))))) (.mul (.add (.num 1 1) (.var 1)) (.sqrt (.mul (.var 1) (.add (.neg (.num 1 1)) (.mul (.num 4 1) (.pow (.var 1) 2)))))),
  .div (.add (.sub (.add (.add (.neg (.mul (.var 1) (.sqrt (.div (.mul (.mul (.add (.neg (.num 1 1)) (.mul (.num 2 1) (.var 1))) (.add (.num 1 1) (.mul (.num 2 1) (.var 1)))) (.add (.add (.num 3 1) (.mul (.num 5 1) (.var 1))) (.mul (.num 2 1) (.pow (.var 1) 2)))) (.add (.neg (.num 1 1)) (.var 1)))))) (.mul (.pow (.var 1) 2) (.sqrt (.div (.mul (.mul (.add (.neg (.num 1 1)) (.mul (.num 2 1) (.var 1))) (.add (.num 1 1) (.mul (.num 2 1) (.var 1)))) (.add (.add (.num 3 1) (.mul (.num 5 1) (.var 1))) (.mul (.num 2 1) (.pow (.var 1) 2)))) (.add (.neg (.num 1 1)) (.var 1)))))) (.mul (.num 3 1) (.sqrt (.div (.mul (.add (.sub (.num 1 1) (.mul (.num 3 1) (.var 1))) (.mul (.num 2 1) (.pow (.var 1) 2))) (.add (.add (.num 3 1) (.mul (.num 5 1) (.var 1))) (.mul (.num 2 1) (.pow (.var 1) 2)))) (.add (.num 1 1) (.mul (.num 2 1) (.var 1))))))) (.mul (.mul (.num 4 1) (.var 1)) (.sqrt (.div (.add (.add (.add (.neg (.num 3 1)) (.var 1)) (.mul (.num 8 1) (.pow (.var 1) 2))) (.mul (.num 4 1) (.pow (.var 1) 3))) (.add (.sub (.neg (.num 1 1)) (.var 1)) (.mul (.num 2 1) (.pow (.var 1) 2))))))) (.mul (.mul (.num 4 1) (.pow (.var 1) 2)) (.sqrt (.div (.add (.add (.add (.neg (.num 3 1)) (.var 1)) (.mul (.num 8 1) (.pow (.var 1) 2))) (.mul (.num 4 1) (.pow (.var 1) 3))) (.add (.sub (.neg (.num 1 1)) (.var 1)) (.mul (.num 2 1) (.pow (.var 1) 2))))))) (.mul (.mul (.var 1) (.sqrt (.add (.num 1 1) (.mul (.num 2 1) (.var 1))))) (.add (.add (.num 3 1) (.mul (.num 5 1) (.var 1))) (.mul (.num 2 1) (.pow (.var 1) 2)))),
  .div (.mul (.sqrt (.num 3 1)) (.add (.add (.mul (.num 3 1) (.sqrt (.div (.mul (.var 1) (.add (.add (.neg (.num 1 1)) (.var 1)) (.mul (.num 2 1) (.pow (.var 1) 2)))) (.add (.num 1 1) (.mul (.num 2 1) (.var 1)))))) (.mul (.mul (.num 4 1) (.var 1)) (.sqrt (.div (.mul (.var 1) (.add (.add (.neg (.num 1 1)) (.var 1)) (.mul (.num 2 1) (.pow (.var 1) 2)))) (.add (.num 1 1) (.mul (.num 2 1) (.var 1))))))) (.sqrt (.mul (.pow (.var 1) 3) (.add (.add (.sub (.neg (.num 1 1)) (.var 1)) (.mul (.num 4 1) (.pow (.var 1) 2))) (.mul (.num 4 1) (.pow (.var 1) 3))))))) (.mul (.mul (.mul (.var 1) (.hpow (.add (.num 1 1) (.var 1)) 1)) (.sqrt (.add (.num 1 1) (.mul (.num 2 1) (.var 1))))) (.add (.num 3 1) (.mul (.num 2 1) (.var 1)))),
  .div (.add (.add (.add (.mul (.mul (.num 3 1) (.add (.num 1 1) (.mul (.num 2 1) (.var 1)))) (.sqrt (.div (.mul (.var 1) (.add (.add (.neg (.num 1 1)) (.var 1)) (.mul (.num 2 1) (.pow (.var 1) 2)))) (.add (.num 3 1) (.mul (.num 2 1) (.var 1)))))) (.mul (.num 3 1) (.sqrt (.div (.mul (.var 1) (.add (.neg (.num 1 1)) (.mul (.num 2 1) (.var 1)))) (.add (.add (.num 3 1) (.mul (.num 5 1) (.var 1))) (.mul (.num 2 1) (.pow (.var 1) 2))))))) (.mul (.mul (.num 3 1) (.add (.num 1 1) (.mul (.num 2 1) (.var 1)))) (.sqrt (.div (.mul (.var 1) (.add (.neg (.num 1 1)) (.mul (.num 2 1) (.var 1)))) (.add (.add (.num 3 1) (.mul (.num 5 1) (.var 1))) (.mul (.num 2 1) (.pow (.var 1) 2))))))) (.mul (.add (.num 1 1) (.mul (.num 2 1) (.var 1))) (.sqrt (.mul (.var 1) (.add (.add (.add (.neg (.num 3 1)) (.var 1)) (.mul (.num 8 1) (.pow (.var 1) 2))) (.mul (.num 4 1) (.pow (.var 1) 3))))))) (.mul (.mul (.num 2 1) (.add (.num 1 1) (.var 1))) (.sqrt (.mul (.var 1) (.add (.add (.add (.num 6 1) (.mul (.num 19 1) (.var 1))) (.mul (.num 16 1) (.pow (.var 1) 2))) (.mul (.num 4 1) (.pow (.var 1) 3))))))]

/-- The factors of class `QSZ`. -/
def factors_QSZ : List Ex := [
  .num 1 1,
  .neg (.num 1 1)]

/-- The factors of class `QSZTZ`. -/
def factors_QSZTZ : List Ex := [
  .num 1 1,
  .neg (.num 1 1)]

/-- The factors of class `SL`. -/
def factors_SL : List Ex := [
  .num 1 1,
  .neg (.num 1 1)]

/-- The factors of class `SL3`. -/
def factors_SL3 : List Ex := [
  .num 1 1,
  .neg (.num 1 1)]

/-- The factors of class `SPSU2`. -/
def factors_SPSU2 : List Ex := [
  .num 1 1,
  .div (.mul (.neg (.num 2 1)) (.sqrt (.mul (.var 0) (.add (.num 1 1) (.var 0))))) (.add (.num 1 1) (.mul (.num 2 1) (.var 0))),
  .div (.num 1 1) (.add (.num 1 1) (.mul (.num 2 1) (.var 0))),
  .neg (.num 1 1),
  .div (.num 1 1) (.sub (.neg (.num 1 1)) (.mul (.num 2 1) (.var 0))),
  .div (.num 1 1) (.sqrt (.div (.mul (.var 0) (.add (.num 1 1) (.mul (.num 2 1) (.var 0)))) (.add (.add (.neg (.num 1 1)) (.var 0)) (.mul (.num 2 1) (.pow (.var 0) 2))))),
  .neg (.div (.num 1 1) (.sqrt (.mul (.var 0) (.add (.num 1 1) (.mul (.num 2 1) (.var 0)))))),
  .div (.mul (.var 0) (.add (.num 3 1) (.mul (.num 2 1) (.var 0)))) (.sqrt (.mul (.mul (.var 0) (.add (.num 1 1) (.var 0))) (.add (.num 3 1) (.mul (.mul (.num 4 1) (.var 0)) (.add (.num 2 1) (.var 0)))))),
  .neg (.div (.num 1 1) (.sqrt (.mul (.add (.num 1 1) (.var 0)) (.add (.num 1 1) (.mul (.num 2 1) (.var 0)))))),
  .div (.num 1 1) (.sqrt (.mul (.var 0) (.add (.num 1 1) (.mul (.num 2 1) (.var 0))))),
  .div (.add (.add (.neg (.num 1 1)) (.var 0)) (.mul (.num 2 1) (.pow (.var 0) 2))) (.sqrt (.mul (.mul (.var 0) (.add (.num 1 1) (.var 0))) (.add (.neg (.num 1 1)) (.mul (.num 4 1) (.pow (.var 0) 2))))),
  .div (.num 1 1) (.sqrt (.mul (.add (.num 1 1) (.var 0)) (.add (.num 1 1) (.mul (.num 2 1) (.var 0))))),
  .add (.add (.sqrt (.div (.mul (.var 0) (.add (.num 1 1) (.mul (.num 2 1) (.var 0)))) (.mul (.pow (.add (.num 1 1) (.var 0)) 3) (.add (.num 3 1) (.mul (.num 2 1) (.var 0)))))) (.sqrt (.div (.var 0) (.mul (.pow (.add (.num 1 1) (.var 0)) 3) (.add (.num 3 1) (.mul (.mul (.num 4 1) (.var 0)) (.add (.num 2 1) (.var 0)))))))) (.sqrt (.sub (.add (.num 1 1) (.div (.num 1 1) (.add (.num 1 1) (.var 0)))) (.div (.num 6 1) (.add (.num 3 1) (.mul (.num 2 1) (.var 0)))))),
  .mul (.neg (.num 2 1)) (.sqrt (.div (.add (.neg (.num 1 1)) (.pow (.var 0) 2)) (.add (.neg (.num 1 1)) (.mul (.num 4 1) (.pow (.var 0) 2))))),
  .div (.sqrt (.num 3 1)) (.sqrt (.add (.neg (.num 1 1)) (.mul (.num 4 1) (.pow (.var 0) 2)))),
  .neg (.div (.sqrt (.add (.neg (.num 3 1)) (.mul (.mul (.num 4 1) (.var 0)) (.add (.num 1 1) (.var 0))))) (.add (.num 1 1) (.mul (.num 2 1) (.var 0)))),
  .div (.num 2 1) (.add (.num 1 1) (.mul (.num 2 1) (.var 0))),
  .div (.mul (.neg (.num 2 1)) (.add (.num 2 1) (.var 0))) (.sqrt (.div (.mul (.mul (.add (.num 2 1) (.var 0)) (.add (.num 1 1) (.mul (.num 2 1) (.var 0)))) (.add (.num 3 1) (.mul (.num 2 1) (.var 0)))) (.var 0))),
  .div (.sqrt (.num 3 1)) (.sqrt (.add (.num 3 1) (.mul (.mul (.num 4 1) (.var 0)) (.add (.num 2 1) (.var 0))))),
  .neg (.div (.sqrt (.num 3 1)) (.sqrt (.add (.neg (.num 1 1)) (.mul (.num 4 1) (.pow (.var 0) 2))))),
  .div (.mul (.neg (.num 2 1)) (.add (.neg (.num 1 1)) (.pow (.var 0) 2))) (.sqrt (.add (.sub (.num 1 1) (.mul (.num 5 1) (.pow (.var 0) 2))) (.mul (.num 4 1) (.pow (.var 0) 4)))),
  .div (.neg (.num 2 1)) (.add (.num 1 1) (.mul (.num 2 1) (.var 0))),
  .neg (.div (.sqrt (.num 3 1)) (.sqrt (.add (.num 3 1) (.mul (.mul (.num 4 1) (.var 0)) (.add (.num 2 1) (.var 0)))))),
  .sub (.sub (.sub (.mul (.neg (.num 3 1)) (.sqrt (.div (.mul (.var 0) (.add (.num 1 1) (.mul (.num 2 1) (.var 0)))) (.mul (.add (.num 2 1) (.var 0)) (.pow (.add (.num 3 1) (.mul (.num 2 1) (.var 0))) 3))))) (.div (.mul (.num 3 1) (.sqrt (.div (.mul (.var 0) (.add (.num 1 1) (.mul (.num 2 1) (.var 0)))) (.mul (.add (.num 2 1) (.var 0)) (.pow (.add (.num 3 1) (.mul (.num 2 1) (.var 0))) 3))))) (.add (.num 1 1) (.var 0)))) (.sqrt (.div (.mul (.var 0) (.add (.num 1 1) (.mul (.num 2 1) (.var 0)))) (.add (.add (.num 6 1) (.mul (.num 7 1) (.var 0))) (.mul (.num 2 1) (.pow (.var 0) 2)))))) (.div (.mul (.num 3 1) (.sqrt (.div (.var 0) (.add (.add (.add (.num 6 1) (.mul (.num 19 1) (.var 0))) (.mul (.num 16 1) (.pow (.var 0) 2))) (.mul (.num 4 1) (.pow (.var 0) 3)))))) (.add (.add (.num 3 1) (.mul (.num 5 1) (.var 0))) (.mul (.num 2 1) (.pow (.var 0) 2)))),
  .div (.add (.num 3 1) (.mul (.num 2 1) (.var 0))) (.sqrt (.div (.mul (.add (.num 1 1) (.var 0)) (.add (.num 3 1) (.mul (.mul (.num 4 1) (.var 0)) (.add (.num 2 1) (.var 0))))) (.var 0))),
  .sqrt (.sub (.add (.num 1 1) (.div (.num 1 1) (.add (.num 1 1) (.var 0)))) (.div (.num 2 1) (.add (.num 1 1) (.mul (.num 2 1) (.var 0))))),
  .div (.add (.neg (.sqrt (.mul (.mul (.add (.num 1 1) (.var 0)) (.add (.num 1 1) (.mul (.num 2 1) (.var 0)))) (.add (.num 3 1) (.mul (.num 2 1) (.var 0)))))) (.mul (.mul (.num 2 1) (.var 0)) (.sqrt (.add (.add (.num 2 1) (.var 0)) (.div (.num 1 1) (.add (.num 1 1) (.mul (.num 2 1) (.var 0)))))))) (.mul (.add (.num 1 1) (.var 0)) (.sqrt (.add (.num 3 1) (.mul (.num 2 1) (.var 0))))),
  .div (.add (.div (.num 1 1) (.sqrt (.div (.mul (.mul (.var 0) (.add (.num 1 1) (.var 0))) (.add (.num 1 1) (.mul (.num 2 1) (.var 0)))) (.add (.neg (.num 1 1)) (.mul (.num 2 1) (.var 0)))))) (.div (.num 1 1) (.sqrt (.div (.mul (.var 0) (.add (.num 1 1) (.var 0))) (.add (.neg (.num 1 1)) (.mul (.num 4 1) (.pow (.var 0) 2))))))) (.num 2 1),
  .div (.sqrt (.add (.neg (.num 1 1)) (.pow (.var 0) 2))) (.var 0),
  .div (.sqrt (.sub (.num 1 1) (.div (.num 2 1) (.add (.num 1 1) (.mul (.num 2 1) (.var 0)))))) (.var 0),
  .neg (.div (.num 1 1) (.var 0)),
  .add (.sub (.num 1 1) (.div (.num 1 1) (.var 0))) (.div (.num 1 1) (.add (.num 1 1) (.var 0))),
  .div (.num 1 1) (.add (.num 1 1) (.var 0)),
  .neg (.div (.add (.num 3 1) (.mul (.num 2 1) (.var 0))) (.mul (.add (.num 1 1) (.var 0)) (.sqrt (.add (.num 3 1) (.mul (.mul (.num 4 1) (.var 0)) (.add (.num 2 1) (.var 0))))))),
  .div (.sqrt (.mul (.var 0) (.add (.num 2 1) (.var 0)))) (.add (.num 1 1) (.var 0)),
  .div (.sqrt (.add (.neg (.num 3 1)) (.mul (.mul (.num 4 1) (.var 0)) (.add (.num 1 1) (.var 0))))) (.add (.num 1 1) (.mul (.num 2 1) (.var 0))),
  .neg (.div (.sqrt (.add (.num 3 1) (.mul (.mul (.num 4 1) (.var 0)) (.add (.num 2 1) (.var 0))))) (.mul (.add (.num 1 1) (.var 0)) (.add (.num 1 1) (.mul (.num 2 1) (.var 0))))),
  .div (.num 1 1) (.add (.add (.num 1 1) (.mul (.num 3 1) (.var 0))) (.mul (.num 2 1) (.pow (.var 0) 2))),
  .neg (.div (.num 1 1) (.add (.num 1 1) (.var 0))),
  .div (.num 1 1) (.var 0),
  .div (.num 1 1) (.add (.var 0) (.mul (.num 2 1) (.pow (.var 0) 2))),
  .sqrt (.add (.add (.num 1 1) (.div (.num 6 1) (.sub (.num 1 1) (.mul (.num 2 1) (.var 0))))) (.div (.num 3 1) (.var 0))),
  .div (.sqrt (.sub (.num 3 1) (.div (.num 3 1) (.var 0)))) (.sqrt (.mul (.var 0) (.add (.neg (.num 1 1)) (.mul (.num 2 1) (.var 0))))),
  .neg (.div (.sqrt (.num 3 1)) (.sqrt (.mul (.var 0) (.add (.neg (.num 1 1)) (.mul (.num 2 1) (.var 0)))))),
  .div (.add (.add (.neg (.num 4 1)) (.var 0)) (.mul (.num 2 1) (.pow (.var 0) 2))) (.sqrt (.mul (.mul (.var 0) (.add (.num 1 1) (.var 0))) (.add (.neg (.num 1 1)) (.mul (.num 4 1) (.pow (.var 0) 2))))),
  .div (.sqrt (.add (.add (.sub (.neg (.num 2 1)) (.div (.num 3 1) (.var 0))) (.mul (.num 12 1) (.var 0))) (.mul (.num 8 1) (.pow (.var 0) 2)))) (.add (.add (.num 1 1) (.mul (.num 3 1) (.var 0))) (.mul (.num 2 1) (.pow (.var 0) 2))),
  .div (.sub (.mul (.neg (.num 3 1)) (.sqrt (.div (.add (.neg (.num 1 1)) (.mul (.num 2 1) (.var 0))) (.add (.num 3 1) (.mul (.mul (.num 4 1) (.var 0)) (.add (.num 2 1) (.var 0))))))) (.mul (.mul (.var 0) (.add (.neg (.num 1 1)) (.mul (.num 2 1) (.var 0)))) (.sub (.sqrt (.div (.add (.num 1 1) (.mul (.num 2 1) (.var 0))) (.add (.neg (.num 3 1)) (.mul (.mul (.num 4 1) (.var 0)) (.add (.num 1 1) (.var 0)))))) (.sqrt (.div (.add (.neg (.num 1 1)) (.mul (.num 2 1) (.var 0))) (.add (.num 3 1) (.mul (.mul (.num 4 1) (.var 0)) (.add (.num 2 1) (.var 0))))))))) (.mul (.var 0) (.sqrt (.add (.num 1 1) (.var 0)))),
  .div (.add (.neg (.num 3 1)) (.mul (.var 0) (.add (.num 3 1) (.mul (.num 2 1) (.var 0))))) (.sqrt (.mul (.mul (.mul (.var 0) (.add (.num 1 1) (.var 0))) (.add (.num 1 1) (.mul (.num 2 1) (.var 0)))) (.add (.num 3 1) (.mul (.num 2 1) (.var 0))))),
  .div (.sqrt (.num 3 1)) (.sqrt (.mul (.add (.num 1 1) (.var 0)) (.add (.num 3 1) (.mul (.num 2 1) (.var 0))))),
  .neg (.div (.sqrt (.div (.add (.num 6 1) (.mul (.num 3 1) (.var 0))) (.add (.num 3 1) (.mul (.num 2 1) (.var 0))))) (.add (.num 1 1) (.var 0))),
  .div (.add (.num 5 1) (.mul (.num 2 1) (.var 0))) (.sqrt (.div (.mul (.mul (.add (.num 1 1) (.var 0)) (.add (.num 3 1) (.mul (.num 2 1) (.var 0)))) (.add (.num 5 1) (.mul (.num 2 1) (.var 0)))) (.var 0))),
  .div (.num 1 1) (.sqrt (.div (.mul (.var 0) (.add (.num 1 1) (.mul (.num 2 1) (.var 0)))) (.add (.add (.neg (.num 3 1)) (.var 0)) (.mul (.num 2 1) (.pow (.var 0) 2))))),
  .neg (.div (.sqrt (.add (.add (.num 9 1) (.mul (.num 15 1) (.var 0))) (.mul (.num 6 1) (.pow (.var 0) 2)))) (.add (.add (.num 1 1) (.mul (.num 3 1) (.var 0))) (.mul (.num 2 1) (.pow (.var 0) 2)))),
  .div (.sqrt (.mul (.mul (.mul (.var 0) (.add (.num 2 1) (.var 0))) (.add (.neg (.num 1 1)) (.mul (.num 2 1) (.var 0)))) (.add (.num 3 1) (.mul (.num 2 1) (.var 0))))) (.mul (.add (.num 1 1) (.var 0)) (.add (.num 1 1) (.mul (.num 2 1) (.var 0)))),
  .div (.sqrt (.num 3 1)) (.mul (.sqrt (.mul (.var 0) (.add (.num 1 1) (.var 0)))) (.add (.num 1 1) (.mul (.num 2 1) (.var 0)))),
  .div (.mul (.mul (.neg (.num 4 1)) (.var 0)) (.add (.num 2 1) (.var 0))) (.mul (.add (.num 1 1) (.mul (.num 2 1) (.var 0))) (.sqrt (.mul (.mul (.mul (.var 0) (.add (.num 1 1) (.var 0))) (.add (.num 2 1) (.var 0))) (.add (.num 3 1) (.mul (.num 2 1) (.var 0)))))),
  .sqrt (.div (.mul (.var 0) (.add (.num 5 1) (.mul (.num 2 1) (.var 0)))) (.add (.add (.num 3 1) (.mul (.num 5 1) (.var 0))) (.mul (.num 2 1) (.pow (.var 0) 2)))),
  .div (.mul (.sqrt (.num 3 1)) (.sqrt (.add (.add (.num 2 1) (.var 0)) (.div (.num 1 1) (.add (.num 1 1) (.mul (.num 2 1) (.var 0))))))) (.mul (.hpow (.add (.num 1 1) (.var 0)) 1) (.add (.num 3 1) (.mul (.num 2 1) (.var 0)))),
  .neg (.div (.sqrt (.num 3 1)) (.sqrt (.mul (.add (.num 1 1) (.var 0)) (.add (.num 3 1) (.mul (.num 2 1) (.var 0))))))]

/-- The factors of class `SPSU2LR`. -/
def factors_SPSU2LR : List Ex := [
  .num 1 1,
  .div (.mul (.neg (.num 2 1)) (.sqrt (.mul (.var 0) (.add (.num 1 1) (.var 0))))) (.add (.num 1 1) (.mul (.num 2 1) (.var 0))),
  .div (.num 1 1) (.add (.num 1 1) (.mul (.num 2 1) (.var 0))),
  .neg (.num 1 1),
  .div (.num 1 1) (.sqrt (.div (.mul (.var 0) (.add (.num 1 1) (.mul (.num 2 1) (.var 0)))) (.add (.add (.neg (.num 1 1)) (.var 0)) (.mul (.num 2 1) (.pow (.var 0) 2))))),
  .neg (.div (.num 1 1) (.sqrt (.mul (.var 0) (.add (.num 1 1) (.mul (.num 2 1) (.var 0)))))),
  .div (.mul (.var 0) (.add (.num 3 1) (.mul (.num 2 1) (.var 0)))) (.sqrt (.mul (.mul (.var 0) (.add (.num 1 1) (.var 0))) (.add (.num 3 1) (.mul (.mul (.num 4 1) (.var 0)) (.add (.num 2 1) (.var 0)))))),
  .neg (.div (.num 1 1) (.sqrt (.mul (.add (.num 1 1) (.var 0)) (.add (.num 1 1) (.mul (.num 2 1) (.var 0)))))),
  .div (.num 1 1) (.sub (.neg (.num 1 1)) (.mul (.num 2 1) (.var 0))),
  .div (.num 1 1) (.sqrt (.mul (.var 0) (.add (.num 1 1) (.mul (.num 2 1) (.var 0))))),
  .div (.add (.add (.neg (.num 1 1)) (.var 0)) (.mul (.num 2 1) (.pow (.var 0) 2))) (.sqrt (.mul (.mul (.var 0) (.add (.num 1 1) (.var 0))) (.add (.neg (.num 1 1)) (.mul (.num 4 1) (.pow (.var 0) 2))))),
  .div (.num 1 1) (.sqrt (.mul (.add (.num 1 1) (.var 0)) (.add (.num 1 1) (.mul (.num 2 1) (.var 0))))),
  .add (.add (.sqrt (.div (.mul (.var 0) (.add (.num 1 1) (.mul (.num 2 1) (.var 0)))) (.mul (.pow (.add (.num 1 1) (.var 0)) 3) (.add (.num 3 1) (.mul (.num 2 1) (.var 0)))))) (.sqrt (.div (.var 0) (.mul (.pow (.add (.num 1 1) (.var 0)) 3) (.add (.num 3 1) (.mul (.mul (.num 4 1) (.var 0)) (.add (.num 2 1) (.var 0)))))))) (.sqrt (.sub (.add (.num 1 1) (.div (.num 1 1) (.add (.num 1 1) (.var 0)))) (.div (.num 6 1) (.add (.num 3 1) (.mul (.num 2 1) (.var 0)))))),
  .div (.add (.num 3 1) (.mul (.num 2 1) (.var 0))) (.sqrt (.div (.mul (.add (.num 1 1) (.var 0)) (.add (.num 3 1) (.mul (.mul (.num 4 1) (.var 0)) (.add (.num 2 1) (.var 0))))) (.var 0))),
  .div (.sqrt (.add (.neg (.num 1 1)) (.pow (.var 0) 2))) (.var 0),
  .div (.sqrt (.sub (.num 1 1) (.div (.num 2 1) (.add (.num 1 1) (.mul (.num 2 1) (.var 0)))))) (.var 0),
  .neg (.div (.num 1 1) (.var 0)),
  .add (.sub (.num 1 1) (.div (.num 1 1) (.var 0))) (.div (.num 1 1) (.add (.num 1 1) (.var 0))),
  .div (.num 1 1) (.add (.num 1 1) (.var 0)),
  .neg (.div (.add (.num 3 1) (.mul (.num 2 1) (.var 0))) (.mul (.add (.num 1 1) (.var 0)) (.sqrt (.add (.num 3 1) (.mul (.mul (.num 4 1) (.var 0)) (.add (.num 2 1) (.var 0))))))),
  .div (.sqrt (.mul (.var 0) (.add (.num 2 1) (.var 0)))) (.add (.num 1 1) (.var 0)),
  .sqrt (.sub (.add (.num 1 1) (.div (.num 1 1) (.add (.num 1 1) (.var 0)))) (.div (.num 2 1) (.add (.num 1 1) (.mul (.num 2 1) (.var 0))))),
  .div (.add (.neg (.sqrt (.mul (.mul (.add (.num 1 1) (.var 0)) (.add (.num 1 1) (.mul (.num 2 1) (.var 0)))) (.add (.num 3 1) (.mul (.num 2 1) (.var 0)))))) (.mul (.mul (.num 2 1) (.var 0)) (.sqrt (.add (.add (.num 2 1) (.var 0)) (.div (.num 1 1) (.add (.num 1 1) (.mul (.num 2 1) (.var 0)))))))) (.mul (.add (.num 1 1) (.var 0)) (.sqrt (.add (.num 3 1) (.mul (.num 2 1) (.var 0))))),
  .div (.sqrt (.add (.neg (.num 3 1)) (.mul (.mul (.num 4 1) (.var 0)) (.add (.num 1 1) (.var 0))))) (.add (.num 1 1) (.mul (.num 2 1) (.var 0))),
  .neg (.div (.sqrt (.add (.num 3 1) (.mul (.mul (.num 4 1) (.var 0)) (.add (.num 2 1) (.var 0))))) (.mul (.add (.num 1 1) (.var 0)) (.add (.num 1 1) (.mul (.num 2 1) (.var 0))))),
  .div (.num 1 1) (.add (.add (.num 1 1) (.mul (.num 3 1) (.var 0))) (.mul (.num 2 1) (.pow (.var 0) 2))),
  .neg (.div (.num 1 1) (.add (.num 1 1) (.var 0))),
  .div (.add (.div (.num 1 1) (.sqrt (.div (.mul (.mul (.var 0) (.add (.num 1 1) (.var 0))) (.add (.num 1 1) (.mul (.num 2 1) (.var 0)))) (.add (.neg (.num 1 1)) (.mul (.num 2 1) (.var 0)))))) (.div (.num 1 1) (.sqrt (.div (.mul (.var 0) (.add (.num 1 1) (.var 0))) (.add (.neg (.num 1 1)) (.mul (.num 4 1) (.pow (.var 0) 2))))))) (.num 2 1),
  .div (.num 1 1) (.var 0),
  .div (.num 1 1) (.add (.var 0) (.mul (.num 2 1) (.pow (.var 0) 2)))]

/-- The factors of class `SPU1`. -/
def factors_SPU1 : List Ex := [
  .neg (.num 1 1),
  .num 1 1]

/-- The factors of class `SPU1LR`. -/
def factors_SPU1LR : List Ex := [
  .neg (.num 1 1),
  .num 1 1]

/-- The factors of class `SU2`. -/
def factors_SU2 : List Ex := [
  .num 1 1,
  .div (.num 1 1) (.add (.num 1 1) (.mul (.num 2 1) (.var 0))),
  .div (.mul (.num 2 1) (.sqrt (.mul (.var 0) (.add (.num 1 1) (.var 0))))) (.add (.num 1 1) (.mul (.num 2 1) (.var 0))),
  .neg (.num 1 1),
  .div (.num 1 1) (.sub (.neg (.num 1 1)) (.mul (.num 2 1) (.var 0))),
  .div (.num 1 1) (.sqrt (.mul (.var 0) (.add (.num 1 1) (.mul (.num 2 1) (.var 0))))),
  .div (.add (.add (.neg (.num 1 1)) (.var 0)) (.mul (.num 2 1) (.pow (.var 0) 2))) (.sqrt (.mul (.mul (.mul (.var 0) (.add (.num 1 1) (.var 0))) (.add (.neg (.num 1 1)) (.mul (.num 2 1) (.var 0)))) (.add (.num 1 1) (.mul (.num 2 1) (.var 0))))),
  .div (.num 1 1) (.sqrt (.mul (.add (.num 1 1) (.var 0)) (.add (.num 1 1) (.mul (.num 2 1) (.var 0))))),
  .add (.add (.sqrt (.div (.mul (.var 0) (.add (.num 1 1) (.mul (.num 2 1) (.var 0)))) (.mul (.pow (.add (.num 1 1) (.var 0)) 3) (.add (.num 3 1) (.mul (.num 2 1) (.var 0)))))) (.sqrt (.div (.var 0) (.mul (.pow (.add (.num 1 1) (.var 0)) 3) (.add (.num 3 1) (.mul (.mul (.num 4 1) (.var 0)) (.add (.num 2 1) (.var 0)))))))) (.sqrt (.sub (.add (.num 1 1) (.div (.num 1 1) (.add (.num 1 1) (.var 0)))) (.div (.num 6 1) (.add (.num 3 1) (.mul (.num 2 1) (.var 0)))))),
  .div (.mul (.neg (.num 2 1)) (.sqrt (.mul (.var 0) (.add (.num 1 1) (.var 0))))) (.add (.num 1 1) (.mul (.num 2 1) (.var 0))),
  .div (.num 1 1) (.sqrt (.div (.mul (.var 0) (.add (.num 1 1) (.mul (.num 2 1) (.var 0)))) (.add (.add (.neg (.num 1 1)) (.var 0)) (.mul (.num 2 1) (.pow (.var 0) 2))))),
  .neg (.div (.num 1 1) (.sqrt (.mul (.var 0) (.add (.num 1 1) (.mul (.num 2 1) (.var 0)))))),
  .div (.add (.mul (.num 3 1) (.sqrt (.mul (.var 0) (.add (.num 3 1) (.mul (.mul (.num 4 1) (.var 0)) (.add (.num 2 1) (.var 0))))))) (.mul (.num 2 1) (.sqrt (.mul (.pow (.var 0) 3) (.add (.num 3 1) (.mul (.mul (.num 4 1) (.var 0)) (.add (.num 2 1) (.var 0)))))))) (.mul (.sqrt (.add (.num 1 1) (.var 0))) (.add (.num 3 1) (.mul (.mul (.num 4 1) (.var 0)) (.add (.num 2 1) (.var 0))))),
  .neg (.div (.num 1 1) (.sqrt (.mul (.add (.num 1 1) (.var 0)) (.add (.num 1 1) (.mul (.num 2 1) (.var 0))))))]

/-- The factors of class `U1`. -/
def factors_U1 : List Ex := [
  .num 1 1,
  .neg (.num 1 1)]

end Verif.Coef
