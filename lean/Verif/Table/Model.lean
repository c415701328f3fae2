import Verif.DataFile.Model
import Mathlib.Algebra.Order.Ring.Rat
import Mathlib.Data.List.Sort
/-!
# Tables of numbers in text files

The three readers for tables of two columns used by the tools: that of `kk` and `integ`, `readtable` of the
library, and `load_pairs`/`load_abs_pairs` of `tools/common`. Numbers are exact decimals; overflow, `nan` and `inf` are not
modelled.
-/

namespace Verif.Table

open Verif.Text
open Verif.DataFile

/-- The reading loop of `tools/kk/kk.hpp:66-81` and `tools/integ/integ.cc:116-129`. A failed extraction ends the loop. The
first argument bounds the number of rounds. -/
def kkLoop : Nat → Str → List (Dec × Dec)
  | 0, _ => []
  | n + 1, s =>
    if s.head? = some '#' then kkLoop n (afterLine s)
    else
      match readDec s with
      | none => []
      | some (x, r) =>
        match readDec r with
        | none => []
        | some (y, r') => (x, y) :: kkLoop n r'

def kkRead (s : Str) : List (Dec × Dec) := kkLoop (s.length + 1) s

/-- `readtable` (`c++/misc.hpp:200-216`); `none` is the exception of `read_one`. -/
def tableLoop : Nat → Str → Option (List (Dec × Dec))
  | 0, _ => some []
  | n + 1, s =>
    let t := skipComments s.length s
    if t = [] then some []
    else
      match readDec t with
      | none => none
      | some (x, r) =>
        match readDec r with
        | none => none
        | some (y, r') => (tableLoop n r').map ((x, y) :: ·)

def readTable (s : Str) : Option (List (Dec × Dec)) := tableLoop (s.length + 1) s

/-- `split_fields` (`tools/common/tabulated.hpp:20-36`) without the check of the number of fields. -/
def fieldsAux (cur : Str) : Str → List Str
  | [] => if cur = [] then [] else [cur.reverse]
  | c :: s =>
    if isSpace c then (if cur = [] then fieldsAux [] s else cur.reverse :: fieldsAux [] s) else fieldsAux (c :: cur) s

def fields (line : Str) : List Str := fieldsAux [] line

/-- An exponent as `strtod` reads it: without digits it is not part of the number. -/
def exponent : Str → Int
  | c :: u =>
    if c = 'e' ∨ c = 'E' then
      let t := readSign u
      let ds := t.2.takeWhile isDigit
      if ds = [] then 0 else if t.1 then -(natValue ds : Int) else natValue ds
    else 0
  | [] => 0

/-- `std::atof`: the longest prefix that is a decimal number, and zero if there is none. -/
def atof (s : Str) : Dec :=
  let t := readSign (s.dropWhile isSpace)
  let ip := t.2.takeWhile isDigit
  let f := readFrac (t.2.dropWhile isDigit)
  if ip = [] ∧ f.1 = [] then ⟨0, 0⟩
  else
    let v : Int := natValue (ip ++ f.1)
    ⟨if t.1 then -v else v, exponent f.2 - f.1.length⟩

/-- `next_data_line` (`tools/common/io.hpp:24-35`): the lines that are used. -/
def dataLines (s : Str) : List Str := (split '\n' s).filter fun l => l ≠ [] ∧ l.head? ≠ some '#'

/-- One row (`tools/common/tabulated.hpp:44-45`). -/
def row (line : Str) : Option (Dec × Dec) :=
  match fields line with
  | a :: b :: _ => some (atof a, atof b)
  | _ => none

/-- `load_pairs` (`tools/common/tabulated.hpp:38-50`). -/
def loadPairs (s : Str) : Option (List (Dec × Dec)) :=
  match (dataLines s).mapM row with
  | none => none
  | some [] => none
  | some (p :: l) => some (p :: l)

/-- The value of a number. -/
def Dec.value (d : Dec) : ℚ := d.m * (10 : ℚ) ^ d.e

/-- The comparison of pairs used by `std::sort`. -/
def pairLE (a b : ℚ × ℚ) : Prop := a.1 < b.1 ∨ a.1 = b.1 ∧ a.2 ≤ b.2

instance : DecidableRel pairLE := fun a b => inferInstanceAs (Decidable (a.1 < b.1 ∨ a.1 = b.1 ∧ a.2 ≤ b.2))

/-- The rows on one side of zero, `accept_sign` of `tools/adapt/load.hpp:50`. -/
def accept (pos : Bool) (x : ℚ) : Bool := (pos && decide (0 < x)) || (!pos && decide (x < 0))

/-- The loop of `load_abs_pairs` (`tools/common/tabulated.hpp:73-96`) on the rows. -/
def absLoop (pos : Bool) : List (ℚ × ℚ) → Option (List (ℚ × ℚ))
  | [] => some []
  | (x, y) :: l =>
    if accept pos x then (if y < 0 then none else (absLoop pos l).map ((|x|, y) :: ·)) else absLoop pos l

def loadAbs (pos : Bool) (rows : List (ℚ × ℚ)) : Option (List (ℚ × ℚ)) :=
  match absLoop pos rows with
  | none => none
  | some [] => none
  | some (p :: l) => some ((p :: l).insertionSort pairLE)

/-- `load_rho` (`tools/adapt/load.hpp:44-54`). -/
def loadRho (pos : Bool) (s : Str) : Option (List (ℚ × ℚ)) :=
  match (dataLines s).mapM row with
  | none => none
  | some l => loadAbs pos (l.map fun p => (Dec.value p.1, Dec.value p.2))

end Verif.Table
