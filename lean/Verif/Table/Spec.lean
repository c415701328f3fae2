import Verif.Table.Model
import Verif.DataFile.Spec
/-!
# Text files with tables

A table as a list of lines in any layout, its text and its contents.
-/

namespace Verif.Table

open Verif.Text
open Verif.DataFile

/-- Blanks and tabs. -/
def Plain (ws : Str) : Prop := ∀ c ∈ ws, c = ' ' ∨ c = '\t'

/-- A line: two numbers, a comment, or nothing but white space. -/
inductive LineT
  | row (ws1 : Str) (x : Lit) (ws2 : Str) (y : Lit) (ws3 : Str)
  | comment (pre text : Str)
  | blank (ws : Str)

def LineT.text : LineT → Str
  | .row ws1 x ws2 y ws3 => ws1 ++ (x.text ++ (ws2 ++ (y.text ++ ws3)))
  | .comment pre text => pre ++ '#' :: text
  | .blank ws => ws

def LineT.OK : LineT → Prop
  | .row ws1 x ws2 y ws3 => Plain ws1 ∧ x.OK ∧ Plain ws2 ∧ ws2 ≠ [] ∧ y.OK ∧ Plain ws3
  | .comment pre text => Plain pre ∧ '\n' ∉ text
  | .blank ws => Plain ws

/-- A comment that begins in the first column. -/
def LineT.isComment : LineT → Prop
  | .comment pre _ => pre = []
  | _ => False

/-- A line without comment. -/
def LineT.noComment : LineT → Prop
  | .comment _ _ => False
  | _ => True

/-- A line that is not indented if it is a comment, and really empty if it is blank. -/
def LineT.strict : LineT → Prop
  | .comment pre _ => pre = []
  | .blank ws => ws = []
  | .row .. => True

/-- The numbers in a line. -/
def LineT.value : LineT → Option (Dec × Dec)
  | .row _ x _ y _ => some (x.val, y.val)
  | _ => none

/-- The text of a file. -/
def fileText (ls : List LineT) : Str := ls.flatMap fun l => l.text ++ ['\n']

/-- The rows of the table. -/
def values (ls : List LineT) : List (Dec × Dec) := ls.filterMap LineT.value

/-- A line as the tools write it (`tools/kk/kk.hpp:83-86`, `c++/misc.hpp:219-223`). -/
def written (p : Lit × Lit) : LineT := .row [] p.1 [' '] p.2 []

end Verif.Table
