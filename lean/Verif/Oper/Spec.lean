import Verif.Oper.Tables
import Verif.Symm.Spec
/-!
# Specification vocabulary for carrying operators to the next step
-/

namespace Verif.Oper
open Verif.Invar Verif.Symm

/-- An operator with value `c` of a quantum number takes value `b` to value `a`: as
`Couples1`, and spins couple only to spins that differ by an integer from the sum. -/
def Carries1 (name : String) (t : QnType) (a b c : Int) : Prop :=
  Couples1 name t a b c ∧
    (t = .additive → name ∈ ["SS", "II", "II1", "II2", "JJ"] → (a + b + c) % 2 = 1)

/-- The operator label `c` connects the ket label `b` with the bra label `a`. -/
def Carries : List Field → Label → Label → Label → Prop
  | [], [], [], [] => True
  | f :: fs, a :: as, b :: bs, c :: cs => Carries1 f.name f.type a b c ∧ Carries fs as bs cs
  | _, _, _, _ => False

/-- The operator labels the function handles. -/
def OpTable.iops (T : OpTable) : List Label := T.targets.map OpTarget.iop

/-- Functions whose operator labels can never be matched, so that nothing is computed. -/
def losing : List (String × Kind) := [("DBLSU2", .doublet), ("QSZTZ", .triplet),
  ("SPSU2LR", .doublet), ("SPSU2LR", .triplet), ("SPSU2T", .doublet), ("SPU1LR", .doublet),
  ("SPU1LR", .triplet)]

/-- Functions without a case for a number of channels with which the class can be used. -/
def unfinished : List (String × Nat × Kind) := [("ISO", 3, .doublet), ("ISO", 3, .triplet),
  ("QSZ", 3, .triplet), ("SPSU2", 3, .triplet)]

/-- The functions that work. -/
def OpTable.Works (T : OpTable) : Prop :=
  (T.builtin.symtype, T.kind) ∉ losing ∧ (T.builtin.symtype, T.builtin.channels, T.kind) ∉ unfinished

instance (T : OpTable) : Decidable T.Works := inferInstanceAs (Decidable (_ ∧ _))

/-- Labels of one step: well formed; without any symmetry there is only the label `0`. -/
def OpTable.Labels (T : OpTable) (diag : Sizes) : Prop :=
  ∀ p ∈ diag, Valid (types T.builtin.sym.fields) p.1 ∧ (T.builtin.symtype = "NONE" → p.1 = [0])

/-- The blocks of an operator have the dimensions of the subspaces they connect. -/
def Fits (diag : Sizes) (ops : List OpMatrix) : Prop :=
  ∀ m ∈ ops, m.rows = sizeSubspace diag m.bra ∧ m.cols = sizeSubspace diag m.ket

/-- The block `(i1, ip)` of the eigenvectors of `(I1, Ip)` is involved: both
combinations couple to their subspaces, and the operator had a matrix between the
two subspaces they come from. -/
def Involved (S : Symmetry) (old : Sizes) (cold : List OpMatrix) (I1 Ip : Label) (i1 ip : Nat) : Prop :=
  ∃ r1 rp A B, 1 ≤ i1 ∧ 1 ≤ ip ∧ S.table[i1 - 1]? = some r1 ∧ S.table[ip - 1]? = some rp ∧
    combine (types S.fields) I1 r1.1 = some A ∧ combine (types S.fields) Ip rp.1 = some B ∧
    allowed S.fields A = true ∧ allowed S.fields B = true ∧
    triangle S.fields I1 A r1.2 = true ∧ triangle S.fields Ip B rp.2 = true ∧
    0 < sizeSubspace old A ∧ 0 < sizeSubspace old B ∧ ∃ m ∈ cold, m.bra = A ∧ m.ket = B

end Verif.Oper
