import Verif.Table.Spec
/-!
# The program `resample`

`tools/resample/resample.hpp`, with `readtable` and `writetable` of `c++/misc.hpp`: from the options and the text of two files to the text of the output file. Numbers are
elements of a linear order; how they are read and printed is a parameter. The spline of the GSL is a parameter, too: it is used through its documented contract
(`Spec.lean`). A missing value is what the C++ program has as NaN.

Not modelled: messages, failures to open the output file, overflow and rounding, the splitting of the command line into options (`getopt`).
-/

namespace Verif.Resample
open Verif.Text (Str)
open Verif.DataFile (Dec Lit)
open Verif.Table

variable {K : Type}

/-- How numbers are read and written: value of a decimal number, the number that is printed with `p` digits, `std::stod`, and the text of NaN. -/
structure Fmt (K : Type) where
  val : Dec → K
  out : Int → K → Lit
  stod : Str → Option K
  atoi : Str → Int
  nan : Str

/-- The options, in the order in which `getopt(argc, argv, "hvep:a:b:")` reports them (`tools/resample/resample.hpp:79-92`). -/
inductive Opt
  | h | v | e
  | p (s : Str)
  | a (s : Str)
  | b (s : Str)
  /-- an unknown option, or one without its argument -/
  | bad
  deriving DecidableEq

/-- The settings (`tools/resample/resample.hpp:56-61`). -/
structure Settings (K : Type) where
  prec : Int
  extrapolate : Bool
  below : Option K
  above : Option K

/-- Defaults of the members. -/
def Settings.default : Settings K := ⟨16, false, none, none⟩

/-- Why the program ends without a result: `-h`, wrong number of arguments, or an exception. -/
inductive Stop
  | help | usage
  | option | number | needsE | noFile | read | empty | few | order
  deriving DecidableEq

/-- The loop over the options (`tools/resample/resample.hpp:79-92`). -/
def options (F : Fmt K) : List Opt → Settings K → Except Stop (Settings K)
  | [], s => .ok s
  | .h :: _, _ => .error .help
  | .v :: os, s => options F os s
  | .e :: os, s => options F os { s with extrapolate := true }
  | .p t :: os, s => options F os { s with prec := F.atoi t }
  | .a t :: os, s =>
    match F.stod t with
    | none => .error .number
    | some x => options F os { s with below := some x }
  | .b t :: os, s =>
    match F.stod t with
    | none => .error .number
    | some x => options F os { s with above := some x }
  | .bad :: _, _ => .error .option

/-- `parse_param` (`tools/resample/resample.hpp:76-105`): the settings and the three file names. -/
def parse (F : Fmt K) (os : List Opt) (args : List Str) : Except Stop (Settings K × Str × Str × Str) :=
  match options F os Settings.default with
  | .error e => .error e
  | .ok s =>
    if s.extrapolate = false ∧ (s.below.isSome ∨ s.above.isSome) then .error .needsE
    else
      match args with
      | [i, g, o] => .ok (s, i, g, o)
      | _ => .error .usage

section order
variable [LinearOrder K]

/-- `operator<` of pairs, as used by `std::sort` (`tools/resample/resample.hpp:160`). -/
def pairLE (a b : K × K) : Prop := a.1 < b.1 ∨ a.1 = b.1 ∧ a.2 ≤ b.2

instance : DecidableRel (pairLE (K := K)) := fun a b => inferInstanceAs (Decidable (a.1 < b.1 ∨ a.1 = b.1 ∧ a.2 ≤ b.2))

/-- A spline: for the sorted points, the value at `x`, or NaN. -/
abbrev Spline (K : Type) := List (K × K) → K → Option K

/-- The object after `init`: the sorted points, the ends of the range and the values used outside. -/
structure Obj (K : Type) where
  pts : List (K × K)
  xmin : K
  xmax : K
  extrapolate : Bool
  below : K
  above : K

/-- `init` (`tools/resample/resample.hpp:154-182`). `gsl_spline_alloc` needs five points for Akima splines and `gsl_spline_init` increasing abscissae. -/
def init (s : Settings K) (im : List (K × K)) : Except Stop (Obj K) :=
  let l := im.insertionSort pairLE
  match l.head?, l.getLast? with
  | some f, some b =>
    if l.length < 5 then .error .few
    else if ¬ (l.map Prod.fst).Pairwise (· < ·) then .error .order
    else .ok ⟨l, f.1, b.1, s.extrapolate, s.below.getD f.2, s.above.getD b.2⟩
  | _, _ => .error .empty

/-- The value for one point of the grid (`tools/resample/resample.hpp:187-189`). -/
def Obj.value (S : Spline K) (o : Obj K) (x : K) : Option K :=
  if o.extrapolate = true ∧ x < o.xmin then some o.below
  else if o.extrapolate = true ∧ o.xmax < x then some o.above
  else S o.pts x

/-- `resample` (`tools/resample/resample.hpp:184-191`). -/
def Obj.resample (S : Spline K) (o : Obj K) (grid : List (K × K)) : List (K × Option K) :=
  grid.map fun p => (p.1, o.value S p.1)

/-- The constructor from tables and `run` without an output file (`tools/resample/resample.hpp:139-152`). -/
def onTables (S : Spline K) (s : Settings K) (f grid : List (K × K)) : Except Stop (List (K × Option K)) :=
  match init s f with
  | .error e => .error e
  | .ok o => .ok (o.resample S grid)

/-- `readtable<double,double>` (`c++/misc.hpp:200-216`). -/
def load (F : Fmt K) (s : Str) : Option (List (K × K)) :=
  (readTable s).map fun l => l.map fun p => (F.val p.1, F.val p.2)

/-- A number as written. -/
def numText (F : Fmt K) (prec : Int) : Option K → Str
  | some x => (F.out prec x).text
  | none => F.nan

/-- `writetable` (`c++/misc.hpp:218-223`). -/
def tableText (F : Fmt K) (prec : Int) (l : List (K × Option K)) : Str :=
  l.flatMap fun p => numText F prec (some p.1) ++ ' ' :: (numText F prec p.2 ++ ['\n'])

/-- Contents of the files by name. -/
abbrev Files := Str → Option Str

/-- A file read by `readtable`. -/
def open_ (F : Fmt K) (fs : Files) (n : Str) : Except Stop (List (K × K)) :=
  match fs n with
  | none => .error .noFile
  | some t =>
    match load F t with
    | none => .error .read
    | some l => .ok l

/-- The constructor for files and `run` (`tools/resample/resample.hpp:120-128`, `141-152`). -/
def onFiles (F : Fmt K) (S : Spline K) (s : Settings K) (i g o : Str) (fs : Files) : Except Stop Files :=
  match open_ F fs i with
  | .error e => .error e
  | .ok f =>
    match open_ F fs g with
    | .error e => .error e
    | .ok grid =>
      match onTables S s f grid with
      | .error e => .error e
      | .ok r => .ok fun n => if n = o then some (tableText F s.prec r) else fs n

/-- The program (`tools/resample/resample.cc`). -/
def main (F : Fmt K) (S : Spline K) (os : List Opt) (args : List Str) (fs : Files) : Except Stop Files :=
  match parse F os args with
  | .error e => .error e
  | .ok (s, i, g, o) => onFiles F S s i g o fs

end order

end Verif.Resample
