import Verif.Mx.Model
import Verif.Mat.Model
import Verif.Diag.Props
/-!
# Matrix files in any layout, and what the tools should compute
-/

namespace Verif.Mx
open Verif.Text
open Verif.DataFile
open Verif.Mat (Mat)

variable {K : Type}

/-- White space inside a line. -/
def InLine (ws : Str) : Prop := ∀ c ∈ ws, isSpace c = true ∧ c ≠ '\n'

/-- A line of a file: numbers with white space in front of each and at the end, or a line that is blank or a comment. -/
inductive Line
  | row (x : Tok Lit) (l : List (Tok Lit)) (trail : Str)
  | other (s : Str)

def Line.text : Line → Str
  | .row x l trail => numText x ++ (l.flatMap numText ++ trail)
  | .other s => s

/-- A number with white space in front, in a line. -/
def TokOK (t : Tok Lit) : Prop := t.ws ≠ [] ∧ InLine t.ws ∧ t.v.OK

def Line.OK : Line → Prop
  | .row x l trail => InLine x.ws ∧ x.v.OK ∧ (∀ t ∈ l, TokOK t) ∧ InLine trail
  | .other s => blankOrComment s = true ∧ '\n' ∉ s

/-- A line that is not a comment. -/
def Line.NoComment : Line → Prop
  | .row _ _ _ => True
  | .other s => InLine s

/-- The file: lines separated by ends of lines. (After the last end of line there is a line without characters.) -/
def fileOf : List Line → Str
  | [] => []
  | l :: ls => l.text ++ ls.flatMap fun l => '\n' :: l.text

/-- The numbers in a line. -/
def Line.toks : Line → Option (List (Tok Lit))
  | .row x l _ => some (x :: l)
  | .other _ => none

/-- The rows of the matrix in a file. `none` if a number is out of range. -/
def contents (F : Fmt K) (ls : List Line) : Option (List (List K)) :=
  (ls.filterMap Line.toks).mapM fun r => r.mapM fun t => F.num t.v.val

/-- All rows have `c` numbers, and there are no columns without rows. -/
def Rect (c : Nat) (m : List (List K)) : Prop := (∀ r ∈ m, r.length = c) ∧ (m = [] → c = 0)

/-- Numbers whose absolute value is not above the tolerance are written as zero. -/
def cut [Lattice K] [AddGroup K] [DecidableLT K] (F : Fmt K) (tol x : K) : K := if tol < |x| then x else F.zero

/-- The matrix with given rows. -/
def matOf [Zero K] (c : Nat) (m : List (List K)) : Mat K := ⟨m.length, c, fun i j => (m.getD i []).getD j 0⟩

/-- The file `name` holds, as text or binary, the matrix with rows `m` of `c` numbers. -/
def IsMatrix (F : Fmt K) (bin : Bool) (fs : Files) (name : Str) (c : Nat) (m : List (List K)) : Prop :=
  readMatrix F bin fs name = .ok ⟨m.length, c, m⟩ ∧ ∀ r ∈ m, r.length = c

/-- The transposed matrix. -/
def flip (b : Bool) (A : Mat K) : Mat K := if b then ⟨A.c, A.r, fun i j => A.e j i⟩ else A

/-- The contract of `dsyev`: Verif.Diag.LapackContract for a real matrix and all eigenvalues, with the array sizes. -/
def Correct (dsyev : Solver ℝ) : Prop :=
  ∀ n d w z, d.length = n * n → dsyev n d = some (w, z) →
    w.length = n ∧ z.length = n * n ∧
    Verif.Diag.LapackContract (𝕜 := ℝ) n (fun p => d.getD p 0) n (fun r => w.getD r 0) (fun p => z.getD p 0)

end Verif.Mx
