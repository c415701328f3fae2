import Verif.Qrun.Model
import Verif.Table.Spec
import Verif.Tools.AvgProps
import Verif.Cmd.Spec
import Verif.Kk.Props
/-!
# Files of thermodynamic data, tables, transforms and integrals

A file with several data sets: lines of numbers in any layout, the data sets separated by comments.
-/

namespace Verif.Qrun
open Verif.Text
open Verif.DataFile (Lit)
open Verif.Table (Plain Dec.value LineT values)
open Verif.Tools (TdRow TdBlock)

/-- A line of numbers: white space, the temperature, the other columns each after some white space, white space. -/
structure RowT where
  lead : Str
  T : Lit
  cols : List (Str × Lit)
  tail : Str

def RowT.text (r : RowT) : Str := r.lead ++ (r.T.text ++ ((r.cols.flatMap fun p => p.1 ++ p.2.text) ++ r.tail))

/-- A line with `n` columns besides the temperature. -/
def RowT.OK (n : Nat) (r : RowT) : Prop :=
  Plain r.lead ∧ r.T.OK ∧ (∀ p ∈ r.cols, Plain p.1 ∧ p.1 ≠ [] ∧ p.2.OK) ∧ Plain r.tail ∧ r.cols.length = n

/-- Its numbers. -/
def RowT.value (r : RowT) : TdRow ℚ := (Dec.value r.T.val, r.cols.map fun p => Dec.value p.2.val)

/-- A data set and the comments behind it; a comment is the text behind `#`. -/
structure SetT where
  first : RowT
  more : List RowT
  comments : List Str

def commentText (c : Str) : Str := '#' :: c ++ ['\n']

def SetT.rows (s : SetT) : List RowT := s.first :: s.more

def SetT.text (s : SetT) : Str := (s.rows.flatMap fun r => r.text ++ ['\n']) ++ s.comments.flatMap commentText

/-- A file: comments and at least one data set. -/
structure FileT where
  head : List Str
  init : List SetT
  last : SetT

def FileT.sets (f : FileT) : List SetT := f.init ++ [f.last]

def FileT.text (f : FileT) : Str := f.head.flatMap commentText ++ f.sets.flatMap SetT.text

/-- All rows have `n` columns besides the temperature, there is a comment between two data sets, comments are single lines. -/
def FileT.OK (n : Nat) (f : FileT) : Prop :=
  (∀ c ∈ f.head, '\n' ∉ c) ∧ (∀ s ∈ f.sets, (∀ r ∈ s.rows, r.OK n) ∧ ∀ c ∈ s.comments, '\n' ∉ c) ∧ ∀ s ∈ f.init, s.comments ≠ []

/-- The numbers of the data sets. -/
def SetT.value (s : SetT) : TdBlock ℚ := s.rows.map RowT.value

def FileT.value (f : FileT) : List (TdBlock ℚ) := f.sets.map SetT.value

/-- No temperature occurs twice in a data set. -/
def FileT.distinct (f : FileT) : Prop := ∀ b ∈ f.value, (b.map Prod.fst).Nodup

/-- `F i k` is the linear interpolation of column `k` of data set number `i`, constant outside the range of the data set. -/
def Interpolates (n : Nat) (d : List (TdBlock ℚ)) (F : Nat → Nat → ℚ → ℚ) : Prop :=
  ∀ i (hi : i < d.length), Tools.Interpolates n d[i] (F i)

/-- The mean over the data sets. -/
def meanOver (N : Nat) (F : Nat → Nat → ℚ → ℚ) (k : Nat) (T : ℚ) : ℚ := ((List.range N).map fun i : Nat => F i k T).sum / (N : ℚ)

/-- `mesh` consists of temperatures of the data; every temperature is represented to one part in a million. -/
structure IsMesh (d : List (TdBlock ℚ)) (mesh : List ℚ) : Prop where
  sorted : mesh.Pairwise (· ≤ ·)
  sub : ∀ x ∈ mesh, ∃ b ∈ d, ∃ r ∈ b, r.1 = x
  all : ∀ b ∈ d, ∀ r ∈ b, ∃ x ∈ mesh, x ≤ r.1 ∧ (x = r.1 ∨ r.1 - x < |x| / 1000000)

/-- The files that the command line names: data and reference (empty if none). Without name the data are in `td.dat`; without second name the reference is
`td-ref.dat` if there is such a file. -/
def Names (fs : Files) (operands : List Str) (name ref : Str) : Prop :=
  (((operands = [] ∧ name = ['t', 'd', '.', 'd', 'a', 't']) ∨ operands = [name]) ∧
    ((fs ['t', 'd', '-', 'r', 'e', 'f', '.', 'd', 'a', 't'] ≠ none ∧ ref = ['t', 'd', '-', 'r', 'e', 'f', '.', 'd', 'a', 't']) ∨
      (fs ['t', 'd', '-', 'r', 'e', 'f', '.', 'd', 'a', 't'] = none ∧ ref = []))) ∨
  operands = [name, ref]

/-- The file with the result: `td-avg.dat` for `td.dat`, otherwise with `.avg.dat` behind the name. -/
def resultName (name : Str) : Str :=
  if name = ['t', 'd', '.', 'd', 'a', 't'] then ['t', 'd', '-', 'a', 'v', 'g', '.', 'd', 'a', 't'] else name ++ ['.', 'a', 'v', 'g', '.', 'd', 'a', 't']

/-- The line with a comment. -/
def titleText (c : Option Str) : Str := match c with | some c => commentText c | none => []

/-- The table with values `val k T` in column `k`. -/
def result (pr : ℚ → Str) (n : Nat) (mesh : List ℚ) (val : Nat → ℚ → ℚ) : Str :=
  mesh.flatMap fun T => pr T ++ ' ' :: (((List.range n).map fun k => val k T).flatMap fun v => pr v ++ [' ']) ++ ['\n']

/-! ## Tables with two columns -/

/-- The numbers in the lines of a table. -/
noncomputable def realValues (rows : List LineT) : Kk.Table :=
  (values rows).map fun p => (((Dec.value p.1 : ℚ) : ℝ), ((Dec.value p.2 : ℚ) : ℝ))

/-- The data `kk` accepts: at least six points at distinct frequencies symmetric around zero. -/
structure KkData (im : Kk.Table) : Prop where
  six : 6 ≤ im.length
  even : im.length % 2 = 0
  symmetric : ∀ p ∈ im, ∃ p' ∈ im, p'.1 = -p.1
  distinct : (im.map Prod.fst).Nodup

/-- `re` is the transform of `im`: the same frequencies in increasing order, and inside the range the principal value for the interpolation of the points. -/
def IsTransform (interp : Kk.Table → (ℝ → ℝ) × (ℝ → ℝ)) (im re : Kk.Table) : Prop :=
  (re.map Prod.fst).Perm (im.map Prod.fst) ∧ (re.map Prod.fst).Pairwise (· < ·) ∧
  ∃ l, l.Perm im ∧ (l.map Prod.fst).Pairwise (· < ·) ∧ ∃ X ∈ im.map Prod.fst, (∀ x ∈ im.map Prod.fst, x ≤ X) ∧
    ∀ p ∈ re, |p.1| < X → ContinuousOn (interp l).1 (Set.Icc (-X) X) → HasDerivAt (interp l).1 ((interp l).2 p.1) p.1 →
      Kk.IsPrincipalValue (interp l).1 X p.1 p.2

/-- The integrand that an option selects. -/
noncomputable def weighted (o : Cmd.Part) (T : ℝ) (s : ℝ → ℝ) (x : ℝ) : ℝ :=
  match o with
  | .total => s x
  | .pos => if 0 < x then s x else 0
  | .neg => if x < 0 then s x else 0
  | .abs => |s x|
  | .fermi => s x / (1 + Real.exp (x / T))

end Verif.Qrun
