import Verif.Coef.Factors
import Verif.Coef.FactorsQJ
import Verif.Coef.FactorsQST
import Verif.Coef.FactorsSPSU2T
import Verif.Oper.Tables
/-!
# The values of the factors in the operator recalculation tables
-/

namespace Verif.Coef
open Verif.Invar Verif.Symm Verif.Oper

/-- The quantum number as it appears in the tables: `S(ss1)`, `ISO(ii1)`, `J(jj1)`, i.e.
`(x - 1)/2` (`c++/invar.hpp:23-24`), or `T` itself. -/
noncomputable def spinVal : Test → Int → ℝ
  | .su2, x => ((x : ℝ) - 1) / 2
  | _, x => x

/-- The values of the variables of the factors for the bra label `I`. -/
noncomputable def labelEnv (fs : List Field) (I : Label) (i : Nat) : ℝ :=
  match fs[i]?, I[i]? with
  | some f, some x => spinVal f.test x
  | _, _ => 0

/-- The factors of every class. -/
def factorLists : List (String × List Ex) := [
  ("DBLISOSZ", factors_DBLISOSZ), ("DBLQSZ", factors_DBLQSZ), ("DBLSU2", factors_DBLSU2), ("ISO", factors_ISO),
  ("ISO2", factors_ISO2), ("ISOLR", factors_ISOLR), ("ISO2LR", factors_ISO2LR), ("ISOSZ", factors_ISOSZ),
  ("ISOSZLR", factors_ISOSZLR), ("NONE", factors_NONE), ("P", factors_P), ("QJ", factors_QJ), ("QS", factors_QS),
  ("QSLR", factors_QSLR), ("QST", factors_QST), ("QSTZ", factors_QSTZ), ("QSZ", factors_QSZ),
  ("QSZTZ", factors_QSZTZ), ("SL", factors_SL), ("SL3", factors_SL3), ("SPSU2", factors_SPSU2),
  ("SPSU2LR", factors_SPSU2LR), ("SPSU2T", factors_SPSU2T), ("SPU1", factors_SPU1), ("SPU1LR", factors_SPU1LR),
  ("SU2", factors_SU2), ("U1", factors_U1)]

def factorsOf (cls : String) : List Ex := (factorLists.lookup cls).getD []

/-- The value of factor `k` of a table for the bra label `I`. -/
noncomputable def _root_.Verif.Oper.OpTable.factor (T : OpTable) (I : Label) (k : Nat) : FVal :=
  match (factorsOf T.builtin.symtype)[k]? with
  | some e => e.eval (labelEnv T.builtin.sym.fields I)
  | none => .nan

/-- Combination `i` (from 0) of the subspace `I` couples, with the ancestor `B`. -/
def couplesTo (S : Symmetry) (I : Label) (i : Nat) (B : Label) : Bool :=
  S.ancestor I i == some B && match S.table[i]? with
    | some r => triangle S.fields I B r.2
    | none => false

end Verif.Coef
