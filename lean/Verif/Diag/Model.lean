import Verif.Mat.Model
import Mathlib.Analysis.RCLike.Basic
/-!
# The interface to the LAPACK eigensolvers (`c++/diag.hpp`)

LAPACK itself is not modelled: its documented contract is a hypothesis
(`LapackContract`).  Exact arithmetic.  `none`: exception.  The CUDA solvers
(same layout of the arrays) are not modelled.
-/

namespace Verif.Diag
open Verif.Mat Finset

/-- A dense matrix and the order in which its elements lie in memory. -/
structure Stored (𝕜 : Type) where
  rowOrdered : Bool
  m : Mat 𝕜

variable {𝕜 : Type}

/-- `data(m)`: the elements in memory. -/
def data (s : Stored 𝕜) : ℕ → 𝕜 :=
  if s.rowOrdered then fun p => s.m.e (p / s.m.c) (p % s.m.c)
  else fun p => s.m.e (p % s.m.r) (p / s.m.r)

/-- `trans`: the transposed matrix in the same storage order. -/
def trans (s : Stored 𝕜) : Stored 𝕜 := ⟨s.rowOrdered, ⟨s.m.c, s.m.r, fun i j => s.m.e j i⟩⟩

/-- `if (!is_row_ordered(m)) m = trans(m)`, `c++/diag.hpp:266`. -/
def prepare (s : Stored 𝕜) : Stored 𝕜 := if !s.rowOrdered then trans s else s

/-- `copy_vec`, `c++/diag.hpp:224-231`. -/
def copyVec (z : ℕ → 𝕜) (dim M : ℕ) : Mat 𝕜 := ⟨M, dim, fun r j => z (dim * r + j)⟩

/-- `copy_val`, `c++/diag.hpp:214-222`. -/
def copyVal (w : ℕ → ℝ) (M : ℕ) : List ℝ := (List.range M).map w

/-- `RawEigen`. -/
structure RawEigen (𝕜 : Type) where
  val : List ℝ
  vec : Mat 𝕜

/-- The wrappers `diagonalise_dsyev`, `_dsyevd`, `_dsyevr`, `_zheev`, `_zheevd`,
`_zheevr`, `c++/diag.hpp:264-598`, without the workspace handling: `solver` gets
the order of the matrix and the memory of the prepared matrix and returns the
number of eigenpairs, the eigenvalues and the array of eigenvectors (for `*ev`
and `*evd` the array that held the matrix, for `*evr` the array `Z`). -/
def diagonalise (solver : ℕ → (ℕ → 𝕜) → ℕ × (ℕ → ℝ) × (ℕ → 𝕜)) (s : Stored 𝕜) : RawEigen 𝕜 :=
  let m := prepare s
  let out := solver m.m.r (data m)
  ⟨copyVal out.2.1 out.1, copyVec out.2.2 m.m.r out.1⟩

/-! ## Workspace sizes -/

/-- `std::uint64_t` arithmetic. -/
def u64 (n : ℕ) : ℕ := n % 2 ^ 64

/-- `checked_lapack_int`, `c++/diag.hpp:121-125`. -/
def checkedLapackInt (intMax n : ℕ) : Option ℕ := if n > intMax then none else some n

/-- `max_one`, `c++/diag.hpp:140`. -/
def maxOne (n : ℕ) : ℕ := if n > 1 then n else 1

/-- `checked_workspace_formula`, `c++/diag.hpp:133-138` (with a 64-bit `size_t`). -/
def checkedFormula (v : ℕ) : Option ℕ := if v < 1 then none else some v

/-- `dsyev_min_lwork` … `zheevr_min_liwork`, `c++/diag.hpp:160-212`, for
`jobz = 'V'`. -/
inductive Array' | dsyevLwork | dsyevdLwork | dsyevdLiwork | dsyevrLwork | dsyevrLiwork
  | zheevLwork | zheevRwork | zheevdLwork | zheevdLrwork | zheevdLiwork | zheevrLwork | zheevrLrwork | zheevrLiwork
  deriving DecidableEq, Repr

def minWork (n : ℕ) : Array' → Option ℕ
  | .dsyevLwork => if n = 0 then some 1 else checkedFormula (maxOne (u64 (u64 (3 * n) + 2 ^ 64 - 1)))
  | .dsyevdLwork => if n ≤ 1 then some 1 else checkedFormula (u64 (u64 (1 + u64 (6 * n)) + u64 (u64 (2 * n) * n)))
  | .dsyevdLiwork => if n ≤ 1 then some 1 else checkedFormula (u64 (3 + u64 (5 * n)))
  | .dsyevrLwork => checkedFormula (maxOne (u64 (26 * n)))
  | .dsyevrLiwork => checkedFormula (maxOne (u64 (10 * n)))
  | .zheevLwork => if n = 0 then some 1 else checkedFormula (maxOne (u64 (u64 (2 * n) + 2 ^ 64 - 1)))
  | .zheevRwork => if n = 0 then some 1 else checkedFormula (maxOne (u64 (u64 (3 * n) + 2 ^ 64 - 2)))
  | .zheevdLwork => if n ≤ 1 then some 1 else checkedFormula (u64 (u64 (2 * n) + u64 (n * n)))
  | .zheevdLrwork => if n ≤ 1 then some 1 else checkedFormula (u64 (u64 (1 + u64 (5 * n)) + u64 (u64 (2 * n) * n)))
  | .zheevdLiwork => if n ≤ 1 then some 1 else checkedFormula (u64 (3 + u64 (5 * n)))
  | .zheevrLwork => checkedFormula (maxOne (u64 (2 * n)))
  | .zheevrLrwork => checkedFormula (maxOne (u64 (24 * n)))
  | .zheevrLiwork => checkedFormula (maxOne (u64 (10 * n)))

/-- `select_workspace_size`, `c++/diag.hpp:146-154`.  `vecMax` is
`std::vector<T>().max_size()`. -/
def selectWork (intMax vecMax minimum optimal : ℕ) (saveram : Bool) : Option ℕ :=
  let cap := min vecMax intMax
  if minimum > cap then none
  else checkedLapackInt intMax (if saveram then minimum else min (max optimal minimum) cap)

end Verif.Diag
