import Verif.Mrun.Model
import Verif.DataFile.Spec
/-!
# Tables of coefficients in any layout, and what the program should know and write
-/

namespace Verif.Mrun
open Verif.Text
open Verif.DataFile (Dec Lit Blank)
open Verif.Table (Dec.value)
open Verif.Calc (Env Ev)

/-- The text is a list of numbers: each with white space in front, which may be missing only for the first, and white space at the end. -/
def Lists (s : Str) (l : List Dec) : Prop :=
  ∃ (items : List (Str × Lit)) (tail : Str), s = (items.flatMap fun p => p.1 ++ p.2.text) ++ tail ∧ Blank tail ∧ (∀ p ∈ items, Blank p.1 ∧ p.2.OK) ∧
    (∀ p ∈ items.tail, p.1 ≠ []) ∧ l = items.map fun p => p.2.val

/-- A file which is a list of numbers. -/
def Holds (fs : Files) (name : Str) (l : List Dec) : Prop := ∃ s, fs name = some s ∧ Lists s l

/-- A file which begins with a number. -/
def Begins (fs : Files) (name : Str) (d : Dec) : Prop := ∃ more, Holds fs name (d :: more)

/-- The end of the name of a file: the number of the channel if the number of channels is given on the command line. -/
def suffix (channels : Option Int) (ch : Nat) : Str :=
  match channels with
  | none => ".dat".toList
  | some _ => natStr ch ++ ".dat".toList

/-- The files of a Wilson chain. -/
def ChainFiles (fs : Files) (c : Option Int) (theta : Nat → Dec) (xi zeta : Nat → List Dec) : Prop :=
  0 ≤ c.getD 1 ∧ ∀ ch : Nat, 1 ≤ ch → (ch : Int) ≤ c.getD 1 → Begins fs ("theta".toList ++ suffix c ch) (theta ch) ∧ 0 ≤ Dec.value (theta ch) ∧
    Holds fs ("xi".toList ++ suffix c ch) (xi ch) ∧ Holds fs ("zeta".toList ++ suffix c ch) (zeta ch)

/-- The files of a Wilson chain with superconducting correlations. -/
def NambuFiles (fs : Files) (c : Option Int) (v : Nat → Nat → Nat → Dec) (xi zeta delta kappa : Nat → List Dec) : Prop :=
  0 ≤ c.getD 1 ∧ ∀ ch : Nat, 1 ≤ ch → (ch : Int) ≤ c.getD 1 →
    Begins fs ("V11".toList ++ suffix c ch) (v ch 1 1) ∧ Begins fs ("V12".toList ++ suffix c ch) (v ch 1 2) ∧
    Begins fs ("V21".toList ++ suffix c ch) (v ch 2 1) ∧ Begins fs ("V22".toList ++ suffix c ch) (v ch 2 2) ∧
    Holds fs ("xi".toList ++ suffix c ch) (xi ch) ∧ Holds fs ("zeta".toList ++ suffix c ch) (zeta ch) ∧
    Holds fs ("scdelta".toList ++ suffix c ch) (delta ch) ∧ Holds fs ("sckappa".toList ++ suffix c ch) (kappa ch)

variable {K : Type} [Field K] [DecidableEq K]

/-- Two calculators with the same arithmetic. -/
def SameArithmetic (E B : Env K) : Prop := E.val = B.val ∧ E.pi = B.pi ∧ E.sqrt = B.sqrt ∧ E.exp = B.exp ∧ E.log = B.log

/-- The program text: standard input, or the file named on the command line. -/
def Source (fs : Files) (stdin : Str) (operands : List Str) (text : Str) : Prop :=
  operands = [] ∧ text = stdin ∨ ∃ n, operands = [n] ∧ fs n = some text

/-- A line of output: the prefix and the numbers with a blank between them. -/
def lineText (pr : K → Str) (pre : Str) (l : List K) : Str := pre ++ ([' '].intercalate (l.map pr) ++ ['\n'])

/-- The lines for a result: one, or for a matrix one for each row. -/
def rowsOf : Ev K → List (List K)
  | .num x => [[x]]
  | .vec l => [l]
  | .mat m => m
  | _ => []

end Verif.Mrun
