import Verif.Gemm.Model
/-!
# What the products in memory should be

The mathematical objects are the matrices of `Verif.Mat`: two sizes and the entries.
-/

namespace Verif.Gemm
open Verif.Mat (Mat)

variable {K : Type}

/-- The matrix stored at `A` is `M`. -/
def Holds (A : Arr K) (M : Mat K) : Prop :=
  A.v.rows = M.r ∧ A.v.cols = M.c ∧ ∀ i < M.r, ∀ j < M.c, A.mem (A.v.addr i j) = some (M.e i j)

/-- A view whose elements do not overlap and whose numbers are in the range of the BLAS. -/
def Fine (lim : Nat) (v : View) : Prop :=
  v.inner = 1 ∧ v.cols ≤ v.stride ∧ v.rows ≤ lim ∧ v.stride ≤ lim

/-- Nothing outside of the matrix was written. -/
def Elsewhere (v : View) (old new : Mem K) : Prop :=
  ∀ p, (∀ i < v.rows, ∀ j < v.cols, p ≠ v.addr i j) → new p = old p

/-- The memory `new` holds `R` in place of `M`, and is otherwise unchanged. -/
def Becomes (M : Arr K) (R : Mat K) (new : Mem K) : Prop :=
  Holds ⟨new, M.v⟩ R ∧ Elsewhere M.v M.mem new

variable [Field K] [StarRing K]

/-- `op(A)` of the BLAS. -/
def op : Tr → Mat K → Mat K
  | .none, A => A
  | .trans, A => ⟨A.c, A.r, fun i j => A.e j i⟩
  | .conj, A => Verif.Mat.adj A

/-- `alpha op(A) op(B) + beta C`. -/
def gemmValue (α : K) (A : Mat K) (tA : Tr) (B : Mat K) (tB : Tr) (β : K) (C : Mat K) : Mat K :=
  ⟨(op tA A).r, (op tB B).c, fun i j => α * (Verif.Mat.mul (op tA A) (op tB B)).e i j + β * C.e i j⟩

end Verif.Gemm
