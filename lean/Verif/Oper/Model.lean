import Verif.Symm.Classes
import Verif.Subspaces.Model
/-!
# Carrying operators to the next step
(`recalc_doublet`, `recalc_triplet`, `recalc_orb_triplet`, `recalc_quadruplet` in
`c++/symmetry/nrg-recalc-*.hpp`, `recalc_general` in `c++/recalc.hpp:118-178`,
`recalc_singlet` in `c++/symmetry.hpp:201-217`)

What is modelled: which pairs of subspaces get a matrix, which rows of the tables
contribute to it with which blocks, and every assertion on the way.  The factors
are represented by an index `k` into a list of expressions; here only whether they
are finite matters.
-/

namespace Verif.Oper
open Verif.Invar Verif.Symm

/-- One component of a label written in the tables as an expression in the
corresponding quantum number of `I1`: `-1 + ss1`, `-p1`, or a constant. -/
inductive Comp
  | plus (c : Int)
  | times (c : Int)
  | const (c : Int)
  deriving DecidableEq, Repr

/-- `Invar(…, …)` in the tables; its length need not be that of the labels. -/
abbrev LabelExpr := List Comp

def Comp.eval : Comp → Int → Int
  | .plus c, x => x + c
  | .times c, x => x * c
  | .const c, _ => c

/-- The value of a label expression for the label `I1`. -/
def evalLabel : LabelExpr → Label → Label
  | c :: cs, x :: xs => c.eval x :: evalLabel cs xs
  | _, _ => []

/-- Which of the recalculation functions. -/
inductive Kind
  | doublet | triplet | orbTriplet | quadruplet
  deriving DecidableEq, Repr

/-- A row `{i1, ip, IN1, INp, factor}` (`struct Recalc`, `c++/symmetry.hpp:50-56`): 1-based
indices, positions `a`, `b` of the two label expressions in `OpTable.labs`, and the position
`k` of the factor in the list of factors of the class. -/
structure OpRow where
  i1 : Nat
  ip : Nat
  a : Nat
  b : Nat
  k : Nat
  deriving DecidableEq, Repr

/-- One block `Ip = Invar(…); switch (P.channels) …` (e.g.
`nrg-recalc-QS.hpp:40-82`): the ket label, the operator label and the table.
`none`: there is no case for the number of channels, `my_assert_not_reached()`. -/
structure OpTarget where
  shift : LabelExpr
  iop : Label
  rows : Option (List OpRow)
  deriving DecidableEq, Repr

/-- One recalculation function for one number of channels. -/
structure OpTable where
  builtin : Builtin
  kind : Kind
  labs : List LabelExpr
  targets : List OpTarget

/-- A block of an operator matrix, `cnew[{bra, ket}]`: its dimensions and the pairs
`(i1, ip)` of blocks of eigenvectors that were used to compute it. -/
structure OpMatrix where
  bra : Label
  ket : Label
  rows : Nat
  cols : Nat
  terms : List (Nat × Nat)
  deriving DecidableEq, Repr

/-- `cold.find({IN1, INp})`. -/
def findOp (ops : List OpMatrix) (bra ket : Label) : Option OpMatrix :=
  ops.find? fun m => m.bra == bra && m.ket == ket

/-- A row with its labels evaluated; `finite`: the factor is finite. -/
structure RowVal where
  i1 : Nat
  ip : Nat
  in1 : Label
  inp : Label
  finite : Bool
  deriving DecidableEq, Repr

/-- The effect of one pass through the loop of `recalc_general`. -/
inductive RowOutcome
  | skip
  | term (i1 ip : Nat)
  | failed
  deriving DecidableEq, Repr

/-- The body of the loop over the table in `recalc_general`,
`c++/recalc.hpp:159-174`.  `d1`, `dp`: the block sizes `rmax` of the two subspaces.
`failed` covers the assertions there and the size checks of `transform`
(`c++/numerics_Eigen.hpp:107-116`). -/
def useRow (S : Symmetry) (d1 dp : List Nat) (cold : List OpMatrix) (I1 Ip : Label) (v : RowVal) :
    RowOutcome :=
  if ¬ (1 ≤ v.i1 ∧ v.i1 ≤ S.combs ∧ 1 ≤ v.ip ∧ v.ip ≤ S.combs) then .failed
  else if !(allowed S.fields v.in1 && allowed S.fields v.inp) then .skip
  else if S.ancestor I1 (v.i1 - 1) ≠ some v.in1 then .failed
  else if S.ancestor Ip (v.ip - 1) ≠ some v.inp then .failed
  else if (d1[v.i1 - 1]?).getD 0 = 0 ∨ (dp[v.ip - 1]?).getD 0 = 0 then .skip
  else match findOp cold v.in1 v.inp with
    | none => .skip
    | some m =>
      if !v.finite then .failed
      else if m.rows = (d1[v.i1 - 1]?).getD 0 ∧ m.cols = (dp[v.ip - 1]?).getD 0
        then .term v.i1 v.ip else .failed

/-- The loop over the table. `none`: an assertion failed. -/
def useRows (S : Symmetry) (d1 dp : List Nat) (cold : List OpMatrix) (I1 Ip : Label) :
    List RowVal → Option (List (Nat × Nat))
  | [] => some []
  | v :: vs => match useRow S d1 dp cold I1 Ip v with
    | .skip => useRows S d1 dp cold I1 Ip vs
    | .term i j => (useRows S d1 dp cold I1 Ip vs).map ((i, j) :: ·)
    | .failed => none

/-- `recalc_general`, `c++/recalc.hpp:118-178`, without the CUDA branch (the same
loop).  Outer `none`: an exception; inner `none`: the empty optional `{}`.
`old`: sizes of the subspaces of the previous step; `diag`: numbers of stored states. -/
def recalcGeneral (S : Symmetry) (old diag : Sizes) (cold : List OpMatrix) (I1 Ip : Label)
    (table : List RowVal) (iop : Label) : Option (Option OpMatrix) :=
  if !triangle S.fields I1 Ip iop then some none
  else do
    let d1 ← subspaceDims S old I1
    let dp ← subspaceDims S old Ip
    let n1 := sizeSubspace diag I1
    let np := sizeSubspace diag Ip
    if n1 = 0 ∨ np = 0 then pure (some ⟨I1, Ip, n1, np, []⟩)
    else do
      let ts ← useRows S d1 dp cold I1 Ip table
      pure (some ⟨I1, Ip, n1, np, ts⟩)

/-- The table of a target for the bra label `I1`. `fin I1 k`: factor `k` is finite. -/
def OpTable.vals (T : OpTable) (fin : Label → Nat → Bool) (I1 : Label) (rs : List OpRow) :
    List RowVal :=
  rs.map fun r => ⟨r.i1, r.ip, evalLabel ((T.labs[r.a]?).getD []) I1,
    evalLabel ((T.labs[r.b]?).getD []) I1, fin I1 r.k⟩

/-- `have_stored_subspaces`, `c++/symmetry.hpp:242-247`. -/
def haveStored (diag : Sizes) (I1 Ip : Label) : Bool :=
  decide (0 < sizeSubspace diag I1) && decide (0 < sizeSubspace diag Ip)

/-- One block of a recalculation function, e.g. `nrg-recalc-QS.hpp:40-82`. -/
def recalcTarget (T : OpTable) (fin : Label → Nat → Bool) (old diag : Sizes) (cold : List OpMatrix)
    (I1 : Label) (t : OpTarget) : Option (List OpMatrix) :=
  match t.rows with
  | none => none
  | some rs =>
    if haveStored diag I1 (evalLabel t.shift I1) then
      (recalcGeneral T.builtin.sym old diag cold I1 (evalLabel t.shift I1) (T.vals fin I1 rs) t.iop).map
        Option.toList
    else some []

/-- A recalculation function: all blocks for all labels in `diag`
(e.g. `nrg-recalc-QS.hpp:32-180`).  With `P.substeps` the classes QS, QSZ, SPSU2 and
SPU1 use the one-channel tables.  `none`: an exception. -/
def recalcOperator (T : OpTable) (fin : Label → Nat → Bool) (old diag : Sizes)
    (cold : List OpMatrix) : Option (List OpMatrix) := do
  let l ← diag.mapM fun p => do
    let m ← T.targets.mapM (recalcTarget T fin old diag cold p.1)
    pure m.flatten
  pure l.flatten

/-- `InvarSinglet` of every class (the constructor arguments in
`c++/symmetry/sym-*-impl.hpp:10-15`). -/
def invarSinglet : List (String × Label) := [
  ("DBLISOSZ", [1, 1, 0]), ("DBLQSZ", [0, 0, 0]), ("DBLSU2", [1, 1]), ("ISO", [1, 1]),
  ("ISO2", [1, 1]), ("ISOLR", [1, 1, 1]), ("ISO2LR", [1, 1, 1]), ("ISOSZ", [1, 0]),
  ("ISOSZLR", [1, 0, 1]), ("NONE", [0]), ("P", [1]), ("PP", [1, 1]), ("QJ", [0, 1]), ("QS", [0, 1]),
  ("QSC3", [0, 1, 0]), ("QSLR", [0, 1, 1]), ("QST", [0, 1, 0]), ("QSTZ", [0, 1, 0]), ("QSZ", [0, 0]),
  ("QSZLR", [0, 0, 1]), ("QSZTZ", [0, 0, 0]), ("SL", [0]), ("SL3", [0, 0, 0]), ("SPSU2", [1]),
  ("SPSU2C3", [1, 0]), ("SPSU2LR", [0, 1]), ("SPSU2T", [1, 0]), ("SPU1", [0]), ("SPU1LR", [0, 1]),
  ("SU2", [1]), ("U1", [0])]

/-- `recalc_singlet` with `parity = 1` for one label, `c++/symmetry.hpp:204-215`: the
table has one row `{i+1, i+1, anc, anc, 1.0}` per combination. -/
def recalcSinglet1 (B : Builtin) (old diag : Sizes) (cold : List OpMatrix) (I : Label) :
    Option (List OpMatrix) := do
  let anc ← (List.range B.sym.combs).mapM (B.sym.ancestor I)
  let table : List RowVal := anc.zipIdx.map fun p => ⟨p.2 + 1, p.2 + 1, p.1, p.1, true⟩
  (recalcGeneral B.sym old diag cold I I table ((invarSinglet.lookup B.symtype).getD [])).map
    Option.toList

/-- `recalc_singlet`, `c++/symmetry.hpp:201-217`, for `parity = 1`. -/
def recalcSinglet (B : Builtin) (old diag : Sizes) (cold : List OpMatrix) : Option (List OpMatrix) := do
  let l ← diag.mapM fun p => recalcSinglet1 B old diag cold p.1
  pure l.flatten

end Verif.Oper
