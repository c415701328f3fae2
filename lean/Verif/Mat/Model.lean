import Mathlib.Algebra.BigOperators.Ring.Finset
import Mathlib.Algebra.BigOperators.Intervals
import Mathlib.Algebra.Star.BigOperators
import Mathlib.Algebra.Field.Defs
/-!
# Dense matrices and the matrix helpers
(`c++/numerics.hpp:158-345`, `c++/numerics_Eigen.hpp:96-150`)

A matrix is its two sizes and its entries.  Entries are total functions of two
indices; only those inside the sizes mean anything.  `K` is a field with
conjugation (`double`: real numbers, `std::complex<double>`: complex numbers);
rounding is not modelled.  A failed `assert` or `my_assert` is `none`.
The CUDA backend is not modelled.
-/

namespace Verif.Mat
open Finset

/-- `EigenMatrix<S>`: `size1`, `size2` and the entries. -/
structure Mat (K : Type) where
  r : ℕ
  c : ℕ
  e : ℕ → ℕ → K

/-- Two matrices have the same sizes and the same entries. -/
def Mat.Eqv {K : Type} (A B : Mat K) : Prop :=
  A.r = B.r ∧ A.c = B.c ∧ ∀ i < A.r, ∀ j < A.c, A.e i j = B.e i j

variable {K : Type} [Field K] [StarRing K]

/-- `zero_matrix`. -/
def zero (r c : ℕ) : Mat K := ⟨r, c, fun _ _ => 0⟩

/-- `empty_matrix` (`0 × 0`). -/
def empty : Mat K := zero 0 0

/-- The matrix product. -/
def mul (A B : Mat K) : Mat K := ⟨A.r, B.c, fun i j => ∑ k ∈ range A.c, A.e i k * B.e k j⟩

/-- The conjugate transpose. -/
def adj (A : Mat K) : Mat K := ⟨A.c, A.r, fun i j => star (A.e j i)⟩

/-- `M + factor * A`, entry by entry. -/
def axpy (M : Mat K) (factor : K) (A : Mat K) : Mat K := ⟨M.r, M.c, fun i j => M.e i j + factor * A.e i j⟩

/-- The trace (`trace_real` before taking the real part), `c++/numerics.hpp:211-214`. -/
def trace (A : Mat K) : K := ∑ i ∈ range A.r, A.e i i

/-- `finite_size`, `c++/numerics.hpp:218-219`. -/
def finiteSize (A : Mat K) : Bool := decide (A.r ≠ 0) && decide (A.c ≠ 0)

/-- `submatrix_const`, `c++/numerics_Eigen.hpp:141-145`: rows `[r1, r2)`,
columns `[c1, c2)`.  A block outside the matrix is an assertion failure in Eigen. -/
def submatrix (A : Mat K) (r1 r2 c1 c2 : ℕ) : Option (Mat K) :=
  if r1 ≤ r2 ∧ r2 ≤ A.r ∧ c1 ≤ c2 ∧ c2 ≤ A.c then
    some ⟨r2 - r1, c2 - c1, fun i j => A.e (r1 + i) (c1 + j)⟩
  else none

/-- `product_Eigen`, `c++/numerics_Eigen.hpp:96-103`: `M += factor * A * B^†`. -/
def product (M : Mat K) (factor : K) (A B : Mat K) : Option (Mat K) :=
  if finiteSize A && finiteSize B then
    if M.r = A.r ∧ A.c = B.c ∧ B.r = M.c then some (axpy M factor (mul A (adj B))) else none
  else some M

/-- `transform_Eigen`, `c++/numerics_Eigen.hpp:105-114`: `M += factor * A * O * B^†`. -/
def transform (M : Mat K) (factor : K) (A O B : Mat K) : Option (Mat K) :=
  if finiteSize A && finiteSize B then
    if M.r = A.r ∧ A.c = O.r ∧ O.c = B.c ∧ B.r = M.c then
      some (axpy M factor (mul (mul A O) (adj B)))
    else none
  else some M

/-- `rotate`, `c++/numerics_Eigen.hpp:116-125`: `M += factor * U^† * O * U`. -/
def rotate (M : Mat K) (factor : K) (U O : Mat K) : Option (Mat K) :=
  if finiteSize U then
    if M.r = U.c ∧ U.r = O.r ∧ O.c = U.r ∧ U.c = M.c then
      some (axpy M factor (mul (mul (adj U) O) U))
    else none
  else some M

/-- `rotate_diagonal`, `c++/numerics_Eigen.hpp:127-138`: only the diagonal of `O`
is used, `M += factor * U^† * (diag(O) U)`. -/
def rotateDiagonal (M : Mat K) (factor : K) (U O : Mat K) : Option (Mat K) :=
  if finiteSize U then
    if M.r = U.c ∧ U.r = O.r ∧ O.c = U.r ∧ U.c = M.c then
      some (axpy M factor (mul (adj U) ⟨U.r, U.c, fun i j => O.e i i * U.e i j⟩))
    else none
  else some M

/-- `trace_contract`, `c++/numerics.hpp:238-246`. -/
def traceContract (A B : Mat K) (n : ℕ) : K := ∑ i ∈ range n, ∑ j ∈ range n, A.e i j * B.e j i

/-- `trim_matrix`, `c++/numerics.hpp:291-302`. -/
def trim (A : Mat K) (n1 n2 : ℕ) : Option (Mat K) :=
  if A.r = 0 ∨ A.c = 0 then some A
  else if n1 ≤ A.r ∧ n2 ≤ A.c then
    if n1 = A.r ∧ n2 = A.c then some A else submatrix A 0 n1 0 n2
  else none

/-- `prod_fit_left`, `c++/numerics.hpp:309-317`. -/
def prodFitLeft (A B : Mat K) : Option (Mat K) :=
  if B.r ≤ A.c then
    if A.r = 0 ∨ B.c = 0 then some empty else do
      let As ← submatrix A 0 A.r 0 B.r
      pure (mul As B)
  else none

/-- `prod_fit_right`, `c++/numerics.hpp:319-327`. -/
def prodFitRight (A B : Mat K) : Option (Mat K) :=
  if B.r ≥ A.c then
    if A.r = 0 ∨ B.c = 0 then some empty else do
      let Bs ← submatrix B 0 A.c 0 B.c
      pure (mul A Bs)
  else none

/-- `prod_fit`, `c++/numerics.hpp:329-332`. -/
def prodFit (A B : Mat K) : Option (Mat K) :=
  if B.r ≤ A.c then prodFitLeft A B else prodFitRight A B

/-- `prod_adj_fit_left`, `c++/numerics.hpp:334-342`: `A^† * B`. -/
def prodAdjFitLeft (A B : Mat K) : Option (Mat K) :=
  if B.r ≤ A.r then
    if A.c = 0 ∨ B.c = 0 then some empty else do
      let As ← submatrix A 0 B.r 0 A.c
      pure (mul (adj As) B)
  else none

end Verif.Mat
