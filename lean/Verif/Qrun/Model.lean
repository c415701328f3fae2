import Verif.Cmd.Model
import Verif.Tools.Avg
import Verif.Kk.Model
import Verif.Table.Model
/-!
# `tdavg`, `integ` and `kk` from the command line and text files to their results

Numbers are exact; how a number is printed is a parameter. Messages on the terminal and failures to open a file for writing are not modelled.
-/

namespace Verif.Qrun
open Verif.Text
open Verif.Tools (FileLine TdRow)
open Verif.Table (Dec.value fields atof kkRead)

/-- The text files. -/
abbrev Files := Str → Option Str

/-- Opening a file for writing empties it, writing sets its contents. -/
def write (fs : Files) (name s : Str) : Files := fun n => if n = name then some s else fs n

/-! ## `tdavg` -/

/-- How `tdavg` ends without result: the command line, a file that cannot be opened, a line without numbers or with another number of columns, no data or a reference with
another number of data sets, the search for an interval (or reading outside a row, which is undefined behaviour). -/
inductive Fail
  | stop (s : Cmd.Stop)
  | nofile (name : Str)
  | format
  | search
  deriving DecidableEq

/-- A line as `load` sees it (`tools/tdavg/tdavg.cc:105-121, 142, 150-155`). -/
def lineOf (l : Str) : FileLine ℚ :=
  if l.head? = some '#' then .comment else .data ((fields l).map fun w => Dec.value (atof w))

def lines (s : Str) : List (FileLine ℚ) := (split '\n' s).map lineOf

/-- `lastcommentline` after `load` (`tools/tdavg/tdavg.cc:142-147`): the last of the comments before the first line of data. -/
def title (s : Str) : Option Str := ((split '\n' s).takeWhile fun l => l.head? == some '#').getLast?

/-- `read_files` and the calculation (`tools/tdavg/tdavg.cc:188-204, 370-374`): the comment and the rows. -/
def average (fs : Files) (name ref : Str) : Except Fail (Option Str × List (TdRow ℚ)) :=
  match fs name with
  | none => .error (.nofile name)
  | some s =>
    match Tools.readFiles (lines s) none with
    | none => .error .format
    | some (cols, data, _) =>
      if ref = [] then
        match Tools.tdavg cols data none with
        | none => .error .search
        | some rows => .ok (title s, rows)
      else
        match fs ref with
        | none => .error (.nofile ref)
        | some r =>
          match Tools.readFiles (lines s) (some (lines r)) with
          | none => .error .format
          | some (cols, data, rdata) =>
            match Tools.tdavg cols data rdata with
            | none => .error .search
            | some rows => .ok (match title r with | some c => some c | none => title s, rows)

/-- `save` (`tools/tdavg/tdavg.cc:344-352`). -/
def rowText (pr : ℚ → Str) (r : TdRow ℚ) : Str := pr r.1 ++ ' ' :: (r.2.flatMap fun v => pr v ++ [' ']) ++ ['\n']

/-- The comment (`tools/tdavg/tdavg.cc:375`). -/
def titleLine : Option Str → Str
  | some c => c ++ ['\n']
  | none => []

def tdDat : Str := ['t', 'd', '.', 'd', 'a', 't']
def tdRef : Str := ['t', 'd', '-', 'r', 'e', 'f', '.', 'd', 'a', 't']
def tdOut : Str := ['t', 'd', '-', 'a', 'v', 'g', '.', 'd', 'a', 't']
def avgDat : Str := ['.', 'a', 'v', 'g', '.', 'd', 'a', 't']

/-- The name of the result (`tools/tdavg/tdavg.cc:363`). -/
def outName (name : Str) : Str := if name = tdDat then tdOut else name ++ avgDat

/-- The name of the reference (`tools/tdavg/tdavg.cc:91-100`), empty if there is none. -/
def refName (fs : Files) : Option Str → Str
  | some r => r
  | none => if (fs tdRef).isSome then tdRef else []

/-- `main` (`tools/tdavg/tdavg.cc:359-378`): how it ends, and the files. The result is opened before the data are read. -/
def tdavg (pr : ℚ → Str) (fs : Files) (words : List Str) : Option Fail × Files :=
  match Cmd.tdavg.main words with
  | .error s => (some (.stop s), fs)
  | .ok o =>
    let out := outName o.name
    let fs' := write fs out []
    match average fs' o.name (refName fs o.ref) with
    | .error e => (some e, fs')
    | .ok (c, rows) =>
      (none, write fs' out ((if o.comments then titleLine c else []) ++ rows.flatMap (rowText pr)))

/-! ## `kk` -/

/-- The numbers of a table. -/
def table (s : Str) : Kk.Table := (kkRead s).map fun p => (((Dec.value p.1 : ℚ) : ℝ), ((Dec.value p.2 : ℚ) : ℝ))

/-- `write` (`tools/kk/kk.hpp:83-86`). -/
def tableText (pr : ℝ → Str) (t : Kk.Table) : Str := t.flatMap fun p => pr p.1 ++ ' ' :: (pr p.2 ++ ['\n'])

/-- How `kk` ends. -/
inductive KkEnd
  | help | usage | nofile | bad (e : Kk.Err) | done
  deriving DecidableEq

structure KkRes where
  status : KkEnd
  files : Files
  /-- the table on standard output, with `kk -` -/
  out : Str

def kkDone : Str := ['K', 'K', ' ', 'd', 'o', 'n', 'e', '!', '\n']

/-- The program `kk` (`tools/kk/kk.hpp:205-232, 268-275`, `tools/kk/kk.cc`). The output file is opened before the data are read. -/
noncomputable def kk (interp : Kk.Table → (ℝ → ℝ) × (ℝ → ℝ)) (pr : ℝ → Str) (fs : Files) (stdin : Str) (words : List Str) : KkRes :=
  match words with
  | [w] =>
    if w = ['-', 'h'] then ⟨.help, fs, []⟩
    else if w = ['-'] then
      match Kk.program interp (table stdin) with
      | .error e => ⟨.bad e, fs, []⟩
      | .ok re => ⟨.done, fs, tableText pr re ++ kkDone⟩
    else ⟨.usage, fs, []⟩
  | [a, b] =>
    if (fs a).isNone then ⟨.nofile, fs, []⟩
    else
      let fs' := write fs b []
      match Kk.program interp (table ((fs' a).getD [])) with
      | .error e => ⟨.bad e, fs', []⟩
      | .ok re => ⟨.done, write fs' b (tableText pr re), []⟩
  | _ => ⟨.usage, fs, []⟩

/-! ## `integ` -/

/-- How `integ` ends without result (`tools/integ/integ.cc:150-153, 182-189, 274-277`). -/
inductive IntFail
  | stop (s : Cmd.Stop)
  | nofile
  | empty
  | spline
  deriving DecidableEq

/-- The number that is printed (`tools/integ/integ.cc:302-312`). -/
noncomputable def part (i : Kk.Integrals) : Cmd.Part → ℝ
  | .total => i.total
  | .pos => i.pos
  | .neg => i.neg
  | .abs => i.abs
  | .fermi => i.fermi

open Classical in
/-- The program `integ` (`tools/integ/integ.cc:149-205, 268-313`) with exact integrals of an arbitrary interpolation. -/
noncomputable def integ (interp : Kk.Table → ℝ → ℝ) (fs : Files) (words : List Str) : Except IntFail ℝ :=
  match Cmd.integ.main words with
  | .error s => .error (.stop s)
  | .ok (o, name) =>
    match fs name with
    | none => .error .nofile
    | some s =>
      let im := table s
      if im = [] then .error .empty
      else
        let l := im.insertionSort Kk.pairLE
        let x := l.map Prod.fst
        if ¬ Kk.splineOK x then .error .spline
        else .ok (part (Kk.integrals (interp l) ((o.T : ℚ) : ℝ) (x.getD 0 0) (x.getD (x.length - 1) 0)) o.out)

end Verif.Qrun
