import Verif.Ops.Model
/-!
# Specification vocabulary for the change of basis
-/

namespace Verif.Ops
open Verif.Invar Verif.Symm Verif.Mat Verif.Dm Verif.Subspaces Finset
variable {K : Type} [Field K] [StarRing K]

/-- `E` holds the first `E.nr` rows of `V`, cut into blocks of columns of the
sizes `d`, one after the other. -/
structure HoldsRows (E : Eig K) (V : Mat K) (d : Dims) : Prop where
  rows : E.nr ≤ V.r
  cols : V.c = d.sum
  count : E.U.length = d.length
  blocks : ∀ (i : ℕ) (B : Mat K), E.U[i]? = some B →
    B.r = E.nr ∧ d[i]? = some B.c ∧ ∀ a < B.r, ∀ k < B.c, B.e a k = V.e a ((d.take i).sum + k)

/-- The matrix element `(a, b)` of `V1 O Vp^†`: the operator `O` conjugated by
the eigenvectors (rows of `V1` and `Vp`). -/
def conjugate (V1 : Mat K) (O : ℕ → ℕ → K) (Vp : Mat K) (a b : ℕ) : K :=
  ∑ x ∈ range V1.c, ∑ y ∈ range Vp.c, V1.e a x * O x y * star (Vp.e b y)

/-- `x` is an index of block `i` (counted from 1). -/
def InBlock (d : Dims) (i x : ℕ) : Prop := (d.take (i - 1)).sum ≤ x ∧ x < (d.take i).sum

instance (d : Dims) (i x : ℕ) : Decidable (InBlock d i x) := inferInstanceAs (Decidable (_ ∧ _))

/-- The entry of a matrix that may be absent. -/
def optEntry (O : Option (Mat K)) (a b : ℕ) : K := match O with
  | some M => M.e a b
  | none => 0

/-- The block-assembled operator in the product basis (states of the old steps
times site states): every line of the table puts `factor` times the old matrix
into the block `(i1, ip)`. -/
def assembled (d1 dp : Dims) (cold : Elements K) (table : List (Recalc K)) (x y : ℕ) : K :=
  (table.map fun t =>
    if InBlock d1 t.i1 x ∧ InBlock dp t.ip y then
      t.factor * optEntry (cold.lookup (t.IN1, t.INp)) (x - (d1.take (t.i1 - 1)).sum) (y - (dp.take (t.ip - 1)).sum)
    else 0).sum

/-- The operator of `recalc_f`: every line of the table puts `factor` times the
identity into the block `(i1, ip)`. -/
def assembledF (d1 dp : Dims) (table : List (RecalcF K)) (x y : ℕ) : K :=
  (table.map fun t =>
    if InBlock d1 t.i1 x ∧ InBlock dp t.ip y ∧ x - (d1.take (t.i1 - 1)).sum = y - (dp.take (t.ip - 1)).sum then
      t.factor else 0).sum

/-- A line of a table that fits the symmetry: indices in range, and labels that
are those of the ancestors (only checked by the code for allowed labels). -/
structure LineOK (S : Symmetry) (I1 Ip : Label) (t : Recalc K) : Prop where
  i1 : 1 ≤ t.i1 ∧ t.i1 ≤ S.combs
  ip : 1 ≤ t.ip ∧ t.ip ≤ S.combs
  anc1 : S.ancestor I1 (t.i1 - 1) = some t.IN1
  ancp : S.ancestor Ip (t.ip - 1) = some t.INp

/-- The old matrix used by the line has the sizes of the blocks and carries
allowed labels, unless one of the two blocks is empty (ancestor absent or not
coupling). -/
def OldOK (S : Symmetry) (d1 dp : Dims) (cold : Elements K) (t : Recalc K) : Prop :=
  ∀ O, cold.lookup (t.IN1, t.INp) = some O → d1[t.i1 - 1]? ≠ some 0 → dp[t.ip - 1]? ≠ some 0 →
    allowed S.fields t.IN1 = true ∧ allowed S.fields t.INp = true ∧
      d1[t.i1 - 1]? = some O.r ∧ dp[t.ip - 1]? = some O.c

/-- The old matrices are those of the identity operator: a unit matrix for every
ancestor of `I` that couples to it. -/
def OldIdentity (S : Symmetry) (I : Label) (d : Dims) (cold : Elements K) : Prop :=
  ∀ (i n : ℕ) (A : Label), d[i]? = some n → S.ancestor I i = some A → n ≠ 0 →
    allowed S.fields A = true ∧
      ∃ O, cold.lookup (A, A) = some O ∧ O.r = n ∧ O.c = n ∧ ∀ a < n, ∀ b < n, O.e a b = if a = b then 1 else 0

end Verif.Ops
