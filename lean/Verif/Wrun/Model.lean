import Verif.Bw.Model
import Verif.Zrun.Model
/-!
# The program `bw`

Model of `tools/bw/bw.cc` as a whole: command line, raw spectra of all calculations, and the files that are written. The calculation is that of `Verif.Bw`. The files
that are left behind by a run that fails, the number of digits, messages on the terminal, and failures to open a file for writing are not modelled.
-/

namespace Verif.Wrun
open Verif.Text
open Verif.Zrun (Files Bin write)

/-- A table that has been written. -/
abbrev Table := List (ℝ × ℝ)

/-- How the program ends without result. -/
inductive Fail
  | stop (s : Cmd.Stop)
  | run (e : Bw.Err)
  deriving DecidableEq

/-- The settings after `cmd_line` (`tools/bw/bw.cc:36-52,76-157`). -/
noncomputable def opt (c : Cmd.BwCmd) : Bw.Opt where
  min := (c.set.min : ℝ)
  max := (c.set.max : ℝ)
  ratio := (c.set.ratio : ℝ)
  iters := c.set.iters
  trim := (c.set.trim : ℝ)
  positivity := c.set.positivity
  b0 := (c.b0 : ℝ)
  bmin := (c.set.bmin : ℝ)
  q := (c.set.q : ℝ)
  savemore := c.set.savemore
  saveall := c.set.saveall
  dyn := (c.set.dyn : ℝ)
  one := c.set.one
  Nz := c.Nz

/-- The name of a file with a raw spectrum (`tools/bw/bw.cc:169-174`). -/
def source (name : Str) : Option Nat → Str
  | none => name
  | some i => natStr i ++ '/' :: name

/-- Opening a raw spectrum (`tools/bw/bw.cc:175-179`). -/
def input (bins : Files (Bin ℝ)) (name : Str) (k : Option Nat) : Option Bw.Bin := (bins (source name k)).map fun f => ⟨f.nums, f.extra⟩

/-- The name of a file that is written (`tools/bw/bw.cc:451`). -/
def fileName (s : Bw.Saved) : Str := s.name.toList ++ ((if 0 < s.iter then natStr s.iter else []) ++ ['.', 'd', 'a', 't'])

/-- The files, written one after the other (`tools/bw/bw.cc:454-470`). -/
def writeAll (texts : Files Table) (l : List Bw.Saved) : Files Table := l.foldl (fun fs s => write fs (fileName s) s.lines) texts

/-- `main` (`tools/bw/bw.cc:655-723`): the tables afterwards. `fuel` bounds the loop that makes the mesh. -/
noncomputable def bw (bins : Files (Bin ℝ)) (texts : Files Table) (fuel : Nat) (argv : List Str) : Except Fail (Files Table) :=
  match Cmd.bw.main argv with
  | .error e => .error (.stop e)
  | .ok c =>
    match Bw.main (opt c) (input bins c.name) fuel with
    | .error e => .error (.run e)
    | .ok out => .ok (writeAll texts out)

end Verif.Wrun
