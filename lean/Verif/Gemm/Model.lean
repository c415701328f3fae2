import Verif.Mat.Model
import Mathlib.Data.List.Range
/-!
# Matrix products in memory (`c++/blas_gemm.hpp`, `c++/numerics_Eigen.hpp`)

Matrices are stored by rows; the products are computed by the Fortran routine `xGEMM`, which assumes
storage by columns. Here a matrix is a view of a memory: address of the first element, sizes, distance of
neighbours in a row (`innerStride`) and of rows (`outerStride`). A memory cell that was never
written holds `none`; a calculation that reads it has no value. Different matrices have different memories. The arithmetic is exact.
The CUDA backend is not modelled.
-/

namespace Verif.Gemm

/-- The cells of one allocation. -/
abbrev Mem (K : Type) := Nat → Option K

/-- Eigen matrix or block: `data()`, `rows()`, `cols()`, `innerStride()`, `outerStride()`. -/
structure View where
  off : Nat
  rows : Nat
  cols : Nat
  inner : Nat
  stride : Nat
  deriving DecidableEq

/-- Address of the element `(i, j)`. -/
def View.addr (v : View) (i j : Nat) : Nat := v.off + i * v.stride + j * v.inner

/-- A matrix: memory and view. -/
structure Arr (K : Type) where
  mem : Mem K
  v : View

/-- `EigenMatrix<S>(r, c)`: stored by rows without gaps, not initialised. -/
def alloc (K : Type) (r c : Nat) : Arr K := ⟨fun _ => none, ⟨0, r, c, 1, c⟩⟩

/-- `submatrix_const` (`c++/numerics_Eigen.hpp:141-145`): a block is a view of the same memory. -/
def Arr.sub {K : Type} (A : Arr K) (r1 r2 c1 c2 : Nat) : Arr K :=
  ⟨A.mem, ⟨A.v.addr r1 c1, r2 - r1, c2 - c1, A.v.inner, A.v.stride⟩⟩

/-- `GemmTranspose` (`c++/blas_gemm.hpp:18`). -/
inductive Tr
  | none | trans | conj
  deriving DecidableEq

/-- `gemm_transpose_char` (`c++/blas_gemm.hpp:26-33`). -/
def Tr.char : Tr → Char
  | .none => 'N'
  | .trans => 'T'
  | .conj => 'C'

/-- How a product can fail. -/
inductive Err
  /-- `GEMM inner dimensions do not match` (`c++/blas_gemm.hpp:67`) -/
  | inner
  /-- a failed `assert` (only when compiled with assertions) -/
  | assertion
  /-- `… exceeds BLAS integer range` (`c++/blas_gemm.hpp:20-24`) -/
  | range
  /-- `… has non-unit inner stride` (`c++/blas_gemm.hpp:37`) -/
  | stride
  /-- the Fortran routine rejects an argument, given by its number -/
  | xerbla (n : Nat)
  deriving DecidableEq

variable {K : Type} [Field K] [StarRing K] [DecidableEq K]

/-- One store. -/
def put (mem : Mem K) (p : Nat) (x : Option K) : Mem K := fun q => if q = p then x else mem q

/-- Two nested loops over `j < n` and `i < m`; cell `ad i j` is replaced by a function of its contents. -/
def loop (ad : Nat → Nat → Nat) (F : Nat → Nat → Option K → Option K) (m n : Nat) (mem : Mem K) : Mem K :=
  ((List.range n).flatMap fun j => (List.range m).map fun i => (i, j)).foldl
    (fun mem x => put mem (ad x.1 x.2) (F x.1 x.2 (mem (ad x.1 x.2)))) mem

/-- Element `(i, l)` of `op(A)` as seen by `xGEMM`: column-major, leading dimension `ld`. -/
def felem (t : Char) (a : Mem K) (ld i l : Nat) : Option K :=
  if t = 'N' then a (i + l * ld) else if t = 'T' then a (l + i * ld) else (a (l + i * ld)).map star

/-- The inner loop of `xGEMM`. -/
def dot (f g : Nat → Option K) (k : Nat) : Option K :=
  (List.range k).foldl (fun s l => s.bind fun s => (f l).bind fun x => (g l).map fun y => s + x * y) (some 0)

/-- New value of an element: for `beta = 0` the old one is not read. -/
def cell (α β : K) (s c : Option K) : Option K :=
  if β = 0 then s.map fun s => α * s else s.bind fun s => c.map fun x => α * s + β * x

/-- `DGEMM`/`ZGEMM` of the BLAS standard, called through `call_gemm` (`c++/blas_gemm.hpp:41-52`):
`C := alpha*op(A)*op(B) + beta*C`, with the checks of the leading dimensions (arguments 8, 10 and 13). `base` is the address of the first element of `C`. -/
def xgemm (ta tb : Char) (m n k : Nat) (α : K) (a : Mem K) (lda : Nat) (b : Mem K) (ldb : Nat) (β : K) (c : Mem K)
    (base ldc : Nat) : Except Err (Mem K) :=
  if lda < max 1 (if ta = 'N' then m else k) then .error (.xerbla 8)
  else if ldb < max 1 (if tb = 'N' then k else n) then .error (.xerbla 10)
  else if ldc < max 1 m then .error (.xerbla 13)
  else .ok (loop (fun i j => base + (i + j * ldc))
    (fun i j x => cell α β (dot (fun l => felem ta a lda i l) (fun l => felem tb b ldb l j) k) x) m n c)

/-- Sizes of `op(A)`. -/
def opRows (t : Tr) (v : View) : Nat := if t = .none then v.rows else v.cols
def opCols (t : Tr) (v : View) : Nat := if t = .none then v.cols else v.rows

/-- `checked_blas_int` and `blas_outer_stride` (`c++/blas_gemm.hpp:20-24,35-39`) for one argument. -/
def strideErr (lim : Nat) (v : View) : Option Err :=
  if v.inner ≠ 1 then some .stride else if v.stride > lim then some .range else none

/-- The checks before the call (`c++/blas_gemm.hpp:77-82`). -/
def argErr (lim m n k : Nat) (A B C : View) : Option Err :=
  if m > lim ∨ n > lim ∨ k > lim then some .range
  else ((strideErr lim A).or (strideErr lim B)).or (strideErr lim C)

/-- `gemm_rowmajor` (`c++/blas_gemm.hpp:54-88`). `dbg`: compiled with assertions; `lim`: largest `lapack_int`. The result is the new
contents of the memory of `C`. -/
def gemmRow (dbg : Bool) (lim : Nat) (α : K) (A : Arr K) (tA : Tr) (B : Arr K) (tB : Tr) (β : K) (C : Arr K) :
    Except Err (Mem K) :=
  let m := opRows tA A.v
  let k := opCols tA A.v
  let n := opCols tB B.v
  if k ≠ opRows tB B.v then .error .inner
  else if dbg = true ∧ ¬ (C.v.rows = m ∧ C.v.cols = n) then .error .assertion
  else if m = 0 ∨ n = 0 then .ok C.mem
  else if k = 0 then
    .ok (loop (fun j i => C.v.addr i j) (fun _ _ x => if β = 0 then some 0 else x.map fun y => y * β) C.v.cols C.v.rows C.mem)
  else
    match argErr lim m n k A.v B.v C.v with
    | some e => .error e
    | none =>
      xgemm tB.char tA.char n m k α (fun p => B.mem (B.v.off + p)) B.v.stride (fun p => A.mem (A.v.off + p)) A.v.stride β
        C.mem C.v.off C.v.stride

/-- `finite_size` (`c++/numerics.hpp:221-222`). -/
def finite (A : Arr K) : Bool := decide (A.v.rows ≠ 0) && decide (A.v.cols ≠ 0)

/-- `product_Eigen` (`c++/numerics_Eigen.hpp:97-104`). -/
def product (dbg : Bool) (lim : Nat) (M : Arr K) (factor : K) (A B : Arr K) : Except Err (Mem K) :=
  if finite A && finite B then
    if dbg = true ∧ ¬ (M.v.rows = A.v.rows ∧ A.v.cols = B.v.cols ∧ B.v.rows = M.v.cols) then .error .assertion
    else gemmRow dbg lim factor A .none B .conj 1 M
  else .ok M.mem

/-- `transform_Eigen` (`c++/numerics_Eigen.hpp:106-115`). -/
def transform (dbg : Bool) (lim : Nat) (M : Arr K) (factor : K) (A O B : Arr K) : Except Err (Mem K) :=
  if finite A && finite B then
    if dbg = true ∧ ¬ (M.v.rows = A.v.rows ∧ A.v.cols = O.v.rows ∧ O.v.cols = B.v.cols ∧ B.v.rows = M.v.cols) then
      .error .assertion
    else
      let temp := alloc K A.v.rows O.v.cols
      match gemmRow dbg lim 1 A .none O .none 0 temp with
      | .error e => .error e
      | .ok mem => gemmRow dbg lim factor ⟨mem, temp.v⟩ .none B .conj 1 M
  else .ok M.mem

/-- `rotate` (`c++/numerics_Eigen.hpp:117-126`). -/
def rotate (dbg : Bool) (lim : Nat) (M : Arr K) (factor : K) (U O : Arr K) : Except Err (Mem K) :=
  if finite U then
    if dbg = true ∧ ¬ (M.v.rows = U.v.cols ∧ U.v.rows = O.v.rows ∧ O.v.cols = U.v.rows ∧ U.v.cols = M.v.cols) then
      .error .assertion
    else
      let temp := alloc K U.v.cols O.v.cols
      match gemmRow dbg lim 1 U .conj O .none 0 temp with
      | .error e => .error e
      | .ok mem => gemmRow dbg lim factor ⟨mem, temp.v⟩ .none U .none 1 M
  else .ok M.mem

/-- Contents of the element `(i, j)`. -/
def Arr.get (A : Arr K) (i j : Nat) : Option K := A.mem (A.v.addr i j)

/-- `rotate_diagonal` (`c++/numerics_Eigen.hpp:128-139`). -/
def rotateDiagonal (dbg : Bool) (lim : Nat) (M : Arr K) (factor : K) (U O : Arr K) : Except Err (Mem K) :=
  if finite U then
    if dbg = true ∧ ¬ (M.v.rows = U.v.cols ∧ U.v.rows = O.v.rows ∧ O.v.cols = U.v.rows ∧ U.v.cols = M.v.cols) then
      .error .assertion
    else
      let temp := alloc K U.v.rows U.v.cols
      let mem := loop (fun j i => temp.v.addr i j)
        (fun j i _ => (O.get i i).bind fun x => (U.get i j).map fun y => x * y) U.v.cols U.v.rows temp.mem
      gemmRow dbg lim factor U .conj ⟨mem, temp.v⟩ .none 1 M
  else .ok M.mem

/-- `matrix_prod` (`c++/numerics_Eigen.hpp:160-166`). -/
def matrixProd (dbg : Bool) (lim : Nat) (A B : Arr K) : Except Err (Arr K) :=
  if dbg = true ∧ ¬ A.v.cols = B.v.rows then .error .assertion
  else
    let result := alloc K A.v.rows B.v.cols
    match gemmRow dbg lim 1 A .none B .none 0 result with
    | .error e => .error e
    | .ok mem => .ok ⟨mem, result.v⟩

/-- `matrix_adj_prod` (`c++/numerics_Eigen.hpp:168-174`). -/
def matrixAdjProd (dbg : Bool) (lim : Nat) (A B : Arr K) : Except Err (Arr K) :=
  if dbg = true ∧ ¬ A.v.rows = B.v.rows then .error .assertion
  else
    let result := alloc K A.v.cols B.v.cols
    match gemmRow dbg lim 1 A .conj B .none 0 result with
    | .error e => .error e
    | .ok mem => .ok ⟨mem, result.v⟩

/-- `prod_fit_left` (`c++/numerics.hpp:309-317`). -/
def prodFitLeft (dbg : Bool) (lim : Nat) (A B : Arr K) : Except Err (Arr K) :=
  if dbg = true ∧ ¬ B.v.rows ≤ A.v.cols then .error .assertion
  else if A.v.rows = 0 ∨ B.v.cols = 0 then .ok (alloc K 0 0)
  else matrixProd dbg lim (A.sub 0 A.v.rows 0 B.v.rows) B

/-- `prod_fit_right` (`c++/numerics.hpp:319-327`). -/
def prodFitRight (dbg : Bool) (lim : Nat) (A B : Arr K) : Except Err (Arr K) :=
  if dbg = true ∧ ¬ B.v.rows ≥ A.v.cols then .error .assertion
  else if A.v.rows = 0 ∨ B.v.cols = 0 then .ok (alloc K 0 0)
  else matrixProd dbg lim A (B.sub 0 A.v.cols 0 B.v.cols)

/-- `prod_fit` (`c++/numerics.hpp:329-332`). -/
def prodFit (dbg : Bool) (lim : Nat) (A B : Arr K) : Except Err (Arr K) :=
  if B.v.rows ≤ A.v.cols then prodFitLeft dbg lim A B else prodFitRight dbg lim A B

/-- `prod_adj_fit_left` (`c++/numerics.hpp:334-342`). -/
def prodAdjFitLeft (dbg : Bool) (lim : Nat) (A B : Arr K) : Except Err (Arr K) :=
  if dbg = true ∧ ¬ B.v.rows ≤ A.v.rows then .error .assertion
  else if A.v.cols = 0 ∨ B.v.cols = 0 then .ok (alloc K 0 0)
  else matrixAdjProd dbg lim (A.sub 0 B.v.rows 0 A.v.cols) B

end Verif.Gemm
