import Verif.Cmd.Model
import Verif.Tools.Hilb
/-!
# The program `hilb`

`tools/hilb/hilb.hpp` as a whole: from the command line and the text of the files to the numbers that are printed. Numbers read are exact decimals and are processed
as real numbers; the integrals are exact and the cubic spline of the GSL is a parameter (`Spec.lean`). Not modelled: rounding in the output (16 digits), output files
that cannot be opened, numbers outside the range of `double`.
-/

namespace Verif.Hrun
open Verif.Text
open Verif.DataFile (Dec readDec)
open Verif.Table (Dec.value pairLE)
open Verif.Cmd
open Verif.Tools.Hilb

/-- The files: the text, or `none` if the file cannot be opened. -/
abbrev Files := Str → Option Str

/-- Opening files for output: they are empty (`safe_open_wr`, `tools/hilb/hilb.hpp:352-357`). -/
def trunc (fs : Files) (names : List Str) : Files := fun f => if f ∈ names then some [] else fs f

/-- Two extractions. -/
def read2 (s : Str) : Option (ℚ × ℚ × Str) :=
  match readDec s with
  | none => none
  | some (x, r) =>
    match readDec r with
    | none => none
    | some (y, r') => some (Dec.value x, Dec.value y, r')

/-- The reading loop of `load_dos` (`tools/hilb/hilb.hpp:363-370`). The number bounds the number of rounds. -/
def dosLoop : Nat → Str → List (ℚ × ℚ)
  | 0, _ => []
  | n + 1, s =>
    match read2 s with
    | none => []
    | some (x, y, r) => (x, y) :: dosLoop n r

/-- How a run can end without its result. -/
inductive Fail
  /-- in `getopt` -/
  | cmd (s : Stop)
  /-- exceptions -/
  | noFile | noData
  /-- an `assert` -/
  | assertion
  /-- a null pointer is dereferenced: `gsl_spline_alloc` wants three points -/
  | nullPointer
  /-- the spline is used without having been set up: `gsl_spline_init` wants increasing abscissae, and its status is ignored -/
  | noSpline
  /-- a file opened twice for output, or used both as table and for output -/
  | sameFile
  deriving DecidableEq

/-- Strictly increasing abscissae, as `gsl_spline_init` checks. -/
def increasing : List (ℚ × ℚ) → Bool
  | a :: b :: l => decide (a.1 < b.1) && increasing (b :: l)
  | _ => true

/-- `load_dos` and `report_dos` (`tools/hilb/hilb.hpp:359-396`) with the constructor of `interpolator` (`:135-144`). -/
def loadDos (s : Str) : Except Fail (List (ℚ × ℚ)) :=
  match (dosLoop (s.length + 1) s).insertionSort pairLE with
  | [] => .error .noData
  | a :: l =>
    if a.1 < ((a :: l).getLast (by simp)).1 then
      (if (a :: l).length < 3 then .error .nullPointer else if increasing (a :: l) then .ok (a :: l) else .error .noSpline)
    else .error .assertion

/-- All tables named on the command line are loaded; the last one is used (`tools/hilb/hilb.hpp:438-442`). `none`: the semicircle. -/
def loadAll (fs : Files) : List Str → Option (List (ℚ × ℚ)) → Except Fail (Option (List (ℚ × ℚ)))
  | [], d => .ok d
  | f :: l, _ =>
    match fs f with
    | none => .error .noFile
    | some t =>
      match loadDos t with
      | .error e => .error e
      | .ok pts => loadAll fs l (some pts)

/-- A cubic spline: the function through the points. -/
abbrev Spline := List (ℝ × ℝ) → ℝ → ℝ

def reals (l : List (ℚ × ℚ)) : List (ℝ × ℝ) := l.map fun p => ((p.1 : ℝ), (p.2 : ℝ))

/-- `Bethe_fnc`, `tools/hilb/hilb.hpp:292`. -/
noncomputable def semicircle (scale w : ℝ) : ℝ := if |w * scale| < 1 then 2 / Real.pi * scale * Real.sqrt (1 - (w * scale) ^ 2) else 0

/-- `hilbert_transform` (`tools/hilb/hilb.hpp:195-263`) with the case of a real argument: then `W1` and `W2` are infinite, both integrals are omitted outside the band,
and inside it and at the edges there is no number. -/
noncomputable def transform (rhor rhoi : ℝ → ℝ) (B x y : ℝ) : Option (ℝ × ℝ) :=
  if y = 0 then (if x < -B ∨ B < x then some (0, 0) else none)
  else some (hilbertRe rhor rhoi B x y 1e-3, hilbertIm rhor rhoi B x y 1e-3)

/-- `hilbert` (`tools/hilb/hilb.hpp:291-296`, `:271-276`); `none` is not a number. With `-s 0` or `-B 0` there is none. -/
noncomputable def hilbert (S : Spline) (dos : Option (List (ℚ × ℚ))) (set : HilbSet) (x y : ℝ) : Option (ℝ × ℝ) :=
  match dos with
  | some pts =>
    let lo : ℝ := (pts.head?.getD (0, 0)).1
    let hi : ℝ := (pts.getLast?.getD (0, 0)).1
    transform (interpolated (S (reals pts)) lo hi) (interpolated (S (reals (pts.map fun p => (p.1, 0)))) lo hi) (bandwidth lo hi) (x + set.shiftx) (y + set.shifty)
  | none =>
    match set.scale, set.width with
    | some s, some w => transform (semicircle s) (fun _ => 0) w (x + set.shiftx) (y + set.shifty)
    | _, _ => none

/-- What is printed of a result: the imaginary part, or both with `-G`. -/
def shown (G : Bool) (r : Option (ℝ × ℝ)) : Option (List ℝ) := r.map fun p => if G then [p.1, p.2] else [p.2]

/-- `do_stream` (`tools/hilb/hilb.hpp:306-319`), with the function that is evaluated. -/
def streamLoop {α : Type} (h : ℚ → ℚ → α) : Nat → Str → List (ℚ × α)
  | 0, _ => []
  | n + 1, s =>
    match readDec s with
    | none => []
    | some (l, r) =>
      match read2 r with
      | none => []
      | some (x, y, r') => (Dec.value l, h x y) :: streamLoop h n r'

/-- One pair of lines in `do_hilb`: the two labels, and the self-energy. -/
abbrev Row := ℚ × ℚ × ℚ × ℚ

/-- `do_hilb` (`tools/hilb/hilb.hpp:321-328`): the lines that are used, and whether the loop ended with the exception. A stream that has failed (`none`) remains so. -/
def hilbLoop : Nat → Str → Option Str → List Row × Bool
  | 0, _, _ => ([], false)
  | n + 1, a, b =>
    match read2 a with
    | none => ([], false)
    | some (l1, x, a') =>
      match b.bind read2 with
      | none => hilbLoop n a' none
      | some (l2, y, b') =>
        if |l1 - l2| > 1 / 1000000 then ([], true)
        else
          let r := hilbLoop n a' (some b')
          ((l1, l2, x, y) :: r.1, r.2)

/-- `tools/hilb/hilb.hpp:329-345`: the numbers written for a pair of lines. -/
noncomputable def greens (S : Spline) (dos : Option (List (ℚ × ℚ))) (set : HilbSet) (r : Row) : Option (ℝ × ℝ) :=
  let (l1, _, x, y) := r
  let y' : ℝ := min (y : ℝ) (-1e-8)
  (hilbert S dos set ((l1 : ℝ) - x) (-y')).map fun p => if set.G then p else (p.1 / -Real.pi, p.2 / -Real.pi)

/-- What a run writes. -/
inductive Result
  /-- one line on the screen or to a file -/
  | one (out : Option Str) (v : Option (List ℝ))
  | stream (out : Option Str) (l : List (ℚ × Option (List ℝ)))
  /-- two files, and whether it ended with the exception -/
  | files (reOut : Str) (re : List (ℚ × Option ℝ)) (imOut : Str) (im : List (ℚ × Option ℝ)) (mismatch : Bool)
  | nothing

/-- The work on a command line that has been taken apart (`tools/hilb/hilb.hpp:473-504`). Tables are loaded, and output files opened, with the options. -/
noncomputable def work (S : Spline) (fs : Files) (c : HilbCmd) : Except Fail Result :=
  let prep (set : HilbSet) (k : Option (List (ℚ × ℚ)) → Files → Except Fail Result) : Except Fail Result :=
    if set.dos.any (· ∈ set.outs) then .error .sameFile
    else
      match loadAll fs set.dos none with
      | .error e => .error e
      | .ok d => k d (trunc fs set.outs)
  match c with
  | .nothing => .ok .nothing
  | .one set x y => prep set fun d _ => .ok (.one set.outs.getLast? (shown set.G (hilbert S d set x y)))
  | .stream set f => prep set fun d fs' =>
    match fs' f with
    | none => .error .noFile
    | some t => .ok (.stream set.outs.getLast? (streamLoop (fun x y => shown set.G (hilbert S d set x y)) (t.length + 1) t))
  | .files set a b c d => prep set fun dos fs' =>
    if (fs' a).isNone ∨ (fs' b).isNone then .error .noFile
    else if c = d then .error .sameFile
    else
      let fs'' := trunc fs' [c, d]
      let ta := (fs'' a).getD []
      let r := hilbLoop (ta.length + 1) ta (some ((fs'' b).getD []))
      .ok (.files c (r.1.map fun q => (q.1, (greens S dos set q).map Prod.fst)) d (r.1.map fun q => (q.2.1, (greens S dos set q).map Prod.snd)) r.2)

/-- The program. -/
noncomputable def main (S : Spline) (fs : Files) (argv : List Str) : Except Fail Result :=
  match hilb.main argv with
  | .error e => .error (.cmd e)
  | .ok c => work S fs c

end Verif.Hrun
