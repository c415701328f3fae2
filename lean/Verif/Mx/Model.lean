import Verif.DataFile.Spec
import Verif.Table.Model
import Verif.Gemm.Model
/-!
# Matrix files and the tools `diag` and `unitary`

Model of the matrix readers and of `save_matrix` (`c++/io.hpp:69-147`, `c++/basicio.hpp:132-165`), of the eigensolver tool
`tools/diag/diag.cc` and of the transformation tool `tools/unitary/unitary.hpp`. A file is the list of its bytes, each a
character. The arithmetic is exact. What is written to the terminal, and failures to open a file for writing, are not modelled.
-/

namespace Verif.Mx
open Verif.Text
open Verif.DataFile
open Verif.Gemm (Arr alloc)

/-- The formats of the numbers of type `double`: the value of a decimal number (`none` out of range, where the extraction
fails), output with 18 digits, the eight bytes in memory and their value (`none` for `inf` and `nan`); `rep` are the numbers
that can be represented. -/
structure Fmt (K : Type) where
  num : Dec → Option K
  put : K → Str
  enc : K → Str
  dec : Str → Option K
  rep : K → Prop
  zero : K
  /-- Output is a decimal number that is read as the same number. -/
  put_lit : ∀ x, rep x → ∃ l : Lit, l.OK ∧ put x = l.text ∧ num l.val = some x
  enc_len : ∀ x, (enc x).length = 8
  dec_enc : ∀ x, rep x → dec (enc x) = some x
  rep_zero : rep zero

/-- How the reading of a matrix fails: all are exceptions. -/
inductive RErr
  /-- the file cannot be opened -/
  | nofile
  /-- `All matrix rows must be equally long` (`c++/basicio.hpp:160`) -/
  | ragged
  /-- `read_one() error. Input is corrupted.` (`c++/basicio.hpp:148`), the messages of `read_matrix_bin`
  (`c++/io.hpp:107`, `116`), and `Non-finite number detected.` (`c++/io.hpp:75`) -/
  | corrupt
  deriving DecidableEq

/-- A matrix that was read: the sizes and the rows. -/
structure Tab (K : Type) where
  r : Nat
  c : Nat
  rows : List (List K)
  deriving DecidableEq

variable {K : Type}

/-- `count_words_in_string` (`c++/basicio.hpp:132-135`). -/
def words (s : Str) : Nat := (Verif.Table.fields s).length

/-- The lines of a file that are used, `getline` and `is_blank_or_comment_line` (`c++/basicio.hpp:137-140`, `157-158`). -/
def used (s : Str) : List Str := (split '\n' s).filter fun l => !blankOrComment l

/-- The loop of `get_dims` (`c++/basicio.hpp:153-165`). -/
def dimsLoop : Nat → Nat → List Str → Except RErr (Nat × Nat)
  | d1, d2, [] => .ok (d1, d2)
  | d1, d2, s :: ls => if 0 < d2 ∧ d2 ≠ words s then .error .ragged else dimsLoop (d1 + 1) (words s) ls

/-- `read_one<double>` (`c++/basicio.hpp:143-150`). -/
def readOne (F : Fmt K) : Rd K := fun s =>
  match readDec s with
  | none => none
  | some (d, r) => (F.num d).map fun x => (x, r)

/-- `read_matrix_text` (`c++/io.hpp:83-98`) with `read_matrix_data` (`c++/io.hpp:69-80`). -/
def readText (F : Fmt K) (s : Str) : Except RErr (Tab K) :=
  match dimsLoop 0 0 (used s) with
  | .error e => .error e
  | .ok d =>
    match readN (readN (readOne F) d.2) d.1 ((used s).flatMap fun l => l ++ ['\n']) with
    | none => .error .corrupt
    | some m => .ok ⟨d.1, d.2, m.1⟩

/-- The bytes of an unsigned integer of 32 bits, the least significant first. -/
def u32 (n : Nat) : Str :=
  [Char.ofNat (n % 256), Char.ofNat (n / 256 % 256), Char.ofNat (n / 65536 % 256), Char.ofNat (n / 16777216 % 256)]

/-- `F.read` of such an integer; `none` if fewer bytes are left. -/
def readU32 : Rd Nat
  | a :: b :: c :: d :: s => some (a.toNat + 256 * b.toNat + 65536 * c.toNat + 16777216 * d.toNat, s)
  | _ => none

/-- `F.read` of a number, and the check that it is finite. -/
def readDouble (F : Fmt K) : Rd K := fun s =>
  if s.length < 8 then none else (F.dec (s.take 8)).map fun x => (x, s.drop 8)

/-- `read_matrix_bin` (`c++/io.hpp:100-119`). -/
def readBin (F : Fmt K) (s : Str) : Except RErr (Tab K) :=
  match readU32 s with
  | none => .error .corrupt
  | some d1 =>
    match readU32 d1.2 with
    | none => .error .corrupt
    | some d2 =>
      match readN (readN (readDouble F) d2.1) d1.1 d2.2 with
      | none => .error .corrupt
      | some m => .ok ⟨d1.1, d2.1, m.1⟩

/-- The files. -/
abbrev Files := Str → Option Str

/-- Writing a file replaces its contents. -/
def write (fs : Files) (name text : Str) : Files := fun n => if n = name then some text else fs n

/-- `read_matrix` (`c++/io.hpp:121-126`). -/
def readMatrix (F : Fmt K) (bin : Bool) (fs : Files) (name : Str) : Except RErr (Tab K) :=
  match fs name with
  | none => .error .nofile
  | some s => if bin then readBin F s else readText F s

/-- The numbers of a row as `diag` and `save_matrix` write them: a blank between two numbers, none after the last. -/
def rowText (F : Fmt K) : List K → Str
  | [] => []
  | [x] => F.put x
  | x :: l => F.put x ++ ' ' :: rowText F l

/-- The lines of a matrix in a text file. -/
def matText (F : Fmt K) (rows : List (List K)) : Str := rows.flatMap fun r => rowText F r ++ ['\n']

/-! ## `diag` -/

/-- The options of `diag` (`tools/diag/diag.cc:25-36`). -/
structure DOpt (K : Type) where
  text : Bool
  bin : Bool
  scale : K
  fnVal : Option Str
  fnVec : Option Str

/-- How `diag` ends. -/
inductive DRes
  /-- `matrix input is empty!`, exit status 1 -/
  | empty
  /-- `matrix must be square!`, exit status 1 -/
  | notSquare
  /-- dimension outside of the range of LAPACK, `abort` -/
  | range
  /-- `eigensolver failed`, `abort` -/
  | failed
  | done (fs : Files)

/-- The loop that reads the numbers (`tools/diag/diag.cc:166-170`): it ends at the first one that cannot be read. The first
argument bounds the number of rounds. -/
def numbersLoop (F : Fmt K) : Nat → Str → List K
  | 0, _ => []
  | n + 1, s =>
    match readOne F s with
    | none => []
    | some (x, r) => x :: numbersLoop F n r

def numbers (F : Fmt K) (s : Str) : List K := numbersLoop F (s.length + 1) s

/-- A list cut in rows of length `n`. -/
def cutRows (n : Nat) : Nat → List K → List (List K)
  | 0, _ => []
  | m + 1, l => l.take n :: cutRows n m (l.drop n)

/-- The eigensolver `dsyev` with `JOBZ = 'V'`, `UPLO = 'L'`: dimension, the array with the matrix; the eigenvalues and the array on exit, `none` if
`INFO` is not zero. -/
abbrev Solver (K : Type) := Nat → List K → Option (List K × List K)

/-- The file with the eigenvalues (`tools/diag/diag.cc:110-121`). -/
def saveValues [Mul K] (F : Fmt K) (o : DOpt K) (w : List K) (fs : Files) : Files :=
  match o.fnVal with
  | none => fs
  | some n => write fs n (w.flatMap fun x => F.put (x * o.scale) ++ ['\n'])

/-- The eigenvectors as text (`tools/diag/diag.cc:123-137`). -/
def saveText (F : Fmt K) (o : DOpt K) (rows : List (List K)) (fs : Files) : Files :=
  match o.fnVec with
  | none => fs
  | some n => if o.text then write fs n (matText F rows) else fs

/-- The eigenvectors in binary form (`tools/diag/diag.cc:139-159`). -/
def saveBin (F : Fmt K) (o : DOpt K) (dim : Nat) (rows : List (List K)) (fs : Files) : Files :=
  match o.fnVec with
  | none => fs
  | some n => if o.bin then write fs n (u32 dim ++ (u32 dim ++ rows.flatMap fun r => r.flatMap F.enc)) else fs

/-- `diagonalize` (`tools/diag/diag.cc:48-160`). The enquiry for the size of the workspace is not modelled (C69 is about it). -/
def diagonalize [Mul K] (F : Fmt K) (lim : Nat) (dsyev : Solver K) (o : DOpt K) (dim : Nat) (d : List K) (fs : Files) : DRes :=
  if dim > lim then .range
  else
    match dsyev dim d with
    | none => .failed
    | some wz =>
      .done (saveBin F o dim (cutRows dim dim wz.2) (saveText F o (cutRows dim dim wz.2) (saveValues F o wz.1 fs)))

/-- `diag_stream` (`tools/diag/diag.cc:163-186`). The square root is exact for the sizes that occur. -/
def diag [Mul K] (F : Fmt K) (lim : Nat) (dsyev : Solver K) (o : DOpt K) (s : Str) (fs : Files) : DRes :=
  let data := numbers F s
  if data = [] then .empty
  else if data.length ≠ Nat.sqrt data.length * Nat.sqrt data.length then .notSquare
  else diagonalize F lim dsyev o (Nat.sqrt data.length) data fs

/-! ## `unitary` -/

/-- The options of `unitary` (`tools/unitary/unitary.hpp:33-41`). -/
structure UOpt (K : Type) where
  bin : Bool
  first : Bool
  last : Bool
  scale : K
  tol : K
  out : Option Str

/-- How `unitary` fails. -/
inductive UErr
  | read (e : RErr)
  | gemm (e : Verif.Gemm.Err)
  /-- a number that was never stored would be written -/
  | garbage
  deriving DecidableEq

/-- The matrix that was read, in memory: by rows. -/
def Tab.arr (t : Tab K) : Arr K := ⟨fun p => t.rows.flatten[p]?, ⟨0, t.r, t.c, 1, t.c⟩⟩

/-- `trans` (`c++/numerics_Eigen.hpp:36`): a copy. -/
def transArr (A : Arr K) : Arr K :=
  ⟨fun p => if p < A.v.cols * A.v.rows then A.mem (A.v.addr (p % A.v.rows) (p / A.v.rows)) else none, ⟨0, A.v.cols, A.v.rows, 1, A.v.rows⟩⟩

/-- `transpose_first ? NRG::trans(A_) : A_` (`tools/unitary/unitary.hpp:80-81`). -/
def transIf (b : Bool) (A : Arr K) : Arr K := if b then transArr A else A

section arith
variable [Field K] [StarRing K] [LinearOrder K]

/-- `M = scale_factor * M` (`tools/unitary/unitary.hpp:86`). -/
def scaleArr (s : K) (M : Arr K) : Arr K := if s ≠ 1 then ⟨fun p => (M.mem p).map fun x => s * x, M.v⟩ else M

/-- A number as written by `save_matrix` (`c++/io.hpp:138`). -/
def chop (F : Fmt K) (tol x : K) : K := if |x| > tol then x else F.zero

/-- The rows of a matrix in memory. -/
def arrRows (M : Arr K) : Option (List (List K)) :=
  (List.range M.v.rows).mapM fun i => (List.range M.v.cols).mapM fun j => M.mem (M.v.addr i j)

/-- `save_matrix` (`c++/io.hpp:128-143`): the text of the file. -/
def matrixText (F : Fmt K) (tol : K) (M : Arr K) : Option Str :=
  (arrRows M).map fun rows => matText F (rows.map fun r => r.map (chop F tol))

/-- The product of the three matrices (`tools/unitary/unitary.hpp:78-86`). -/
def sandwich (dbg : Bool) (lim : Nat) (o : UOpt K) (A_ B C_ : Arr K) : Except Verif.Gemm.Err (Arr K) :=
  let A := transIf o.first A_
  let C := transIf o.last C_
  if dbg = true ∧ ¬ A.v.cols = B.v.rows then .error .assertion
  else if dbg = true ∧ ¬ B.v.cols = C.v.rows then .error .assertion
  else
    match Verif.Gemm.matrixProd dbg lim B C with
    | .error e => .error e
    | .ok N =>
      match Verif.Gemm.matrixProd dbg lim A N with
      | .error e => .error e
      | .ok M => .ok (scaleArr o.scale M)

/-- Writing the result (`tools/unitary/unitary.hpp:88`). -/
def saveResult (F : Fmt K) (o : UOpt K) (M : Arr K) (fs : Files) : Except UErr Files :=
  match o.out with
  | none => .ok fs
  | some n =>
    match matrixText F o.tol M with
    | none => .error .garbage
    | some t => .ok (write fs n t)

/-- `run` (`tools/unitary/unitary.hpp:91-96`) with the names of the three files. -/
def unitary (F : Fmt K) (dbg : Bool) (lim : Nat) (o : UOpt K) (fA fB fC : Str) (fs : Files) : Except UErr Files :=
  match readMatrix F o.bin fs fA with
  | .error e => .error (.read e)
  | .ok A =>
    match readMatrix F false fs fB with
    | .error e => .error (.read e)
    | .ok B =>
      match readMatrix F o.bin fs fC with
      | .error e => .error (.read e)
      | .ok C =>
        match sandwich dbg lim o A.arr B.arr C.arr with
        | .error e => .error (.gemm e)
        | .ok M => saveResult F o M fs

end arith

end Verif.Mx
