import Verif.Table.Model
import Verif.Mx.Model
import Verif.Resample.Model
/-!
# Command lines of the tools

`getopt` of the C library (as all tools call it: short options, operands may stand anywhere) and the loops over the options in fourteen tools, with the checks of the
operands. Numbers on the command line are exact decimals; overflow, `nan` and `inf` are not modelled, nor is the variable `POSIXLY_CORRECT`. Settings that only change
messages (`-v`, `-V`, `-q`) are left out.
-/

namespace Verif.Cmd
open Verif.Text
open Verif.Table (Dec.value atof)

/-- What `getopt` reports: an option, perhaps with argument (`optarg`), or `?`. -/
inductive Ev
  | opt (c : Char) (arg : Option Str)
  /-- not among the options of the program -/
  | unknown (c : Char)
  /-- the command line ends before the argument -/
  | missing (c : Char)
  deriving DecidableEq, Repr

/-- A character in the list of options: `none` if it is no option, otherwise whether it has an argument. A colon marks the option in front of it. -/
def kind : Str → Char → Option Bool
  | [], _ => none
  | a :: s, c => if c = ':' then none else if a = c then some (s.head? == some ':') else kind s c

/-- One element of the command line that begins with `-`: its options, and the option whose argument is the next element. An argument in the same element is the
rest of the element. -/
def cluster (os : Str) : Str → List Ev × Option Char
  | [] => ([], none)
  | c :: cs =>
    match kind os c with
    | none => (.unknown c :: (cluster os cs).1, (cluster os cs).2)
    | some false => (.opt c none :: (cluster os cs).1, (cluster os cs).2)
    | some true => if cs = [] then ([], some c) else ([.opt c (some cs)], none)

/-- `getopt(argc, argv, os)`, called until it returns `-1`: the events, and `argv[optind]`, …, `argv[argc-1]` after that. GNU version: operands are moved to the
end; `--` ends the options; a single `-` is an operand. The state is the option that waits for its argument. -/
def getopt (os : Str) : Option Char → List Str → List Ev × List Str
  | none, [] => ([], [])
  | some c, [] => ([.missing c], [])
  | some c, a :: l => (.opt c (some a) :: (getopt os none l).1, (getopt os none l).2)
  | none, a :: l =>
    if a = ['-', '-'] then ([], l)
    else
      match a with
      | '-' :: c :: cs => ((cluster os (c :: cs)).1 ++ (getopt os (cluster os (c :: cs)).2 l).1, (getopt os (cluster os (c :: cs)).2 l).2)
      | _ => ((getopt os none l).1, a :: (getopt os none l).2)

/-- Why a tool does not start its work: `-h`, wrong number of operands, an option that is not known (`abort` or an exception), a value that is refused. -/
inductive Stop
  | help | usage | option | value
  deriving DecidableEq, Repr

/-- A loop over the options: an event changes the settings or ends the program. -/
def events {σ : Type} (step : σ → Char → Str → Except Stop σ) : List Ev → σ → Except Stop σ
  | [], s => .ok s
  | .opt c a :: l, s =>
    match step s c (a.getD []) with
    | .error e => .error e
    | .ok s' => events step l s'
  | .unknown _ :: _, _ => .error .option
  | .missing _ :: _, _ => .error .option

/-- A program: the list of options, the settings before the loop, the body of the loop, and what is done with the operands. -/
structure Tool (σ τ : Type) where
  opts : Str
  init : σ
  step : σ → Char → Str → Except Stop σ
  finish : σ → List Str → Except Stop τ

/-- From the command line (without the name of the program) to the settings with which the work begins. -/
def Tool.main {σ τ : Type} (t : Tool σ τ) (argv : List Str) : Except Stop τ :=
  match events t.step (getopt t.opts none argv).1 t.init with
  | .error e => .error e
  | .ok s => t.finish s (getopt t.opts none argv).2

/-- `atof`. -/
def num (s : Str) : ℚ := Dec.value (atof s)

/-- `atoi`: a prefix of digits with sign, zero if there is none. -/
def int (s : Str) : Int :=
  let t := readSign (s.dropWhile isSpace)
  let v : Int := natValue (t.2.takeWhile isDigit)
  if t.1 then -v else v

/-! ## Averages of raw spectra -/

/-- Settings common to the tools that read `1/name`, …, `Nz/name` (`tools/binavg/binavg.hpp:32-35`, `tools/mats/mats.cc:31-37`). -/
structure Cols where
  one : Bool := false
  nrcol : Nat := 1
  col : Nat := 1
  deriving DecidableEq

structure BinAvg where
  set : Cols
  name : Str
  Nz : Int

/-- `cmd_line` of `binavg` (`tools/binavg/binavg.hpp:56-87`). -/
def colsStep (s : Cols) (c : Char) (_ : Str) : Except Stop Cols :=
  if c = 'h' then .error .help
  else if c = 'v' then .ok s
  else if c = 'o' then .ok { s with one := true }
  else if c = '2' then .ok { s with nrcol := 2, col := 1 }
  else if c = '3' then .ok { s with nrcol := 2, col := 2 }
  else .error .option

def binavg : Tool Cols BinAvg where
  opts := ['h', 'v', 'o', '2', '3']
  init := {}
  step := colsStep
  finish s ops :=
    match ops with
    | [n, z] => if 1 ≤ int z then .ok ⟨s, n, int z⟩ else .error .value
    | _ => .error .usage

structure Mats where
  set : Cols
  name : Str
  Nz : Int
  T : ℚ
  nrmats : Int

/-- `cmd_line` of `mats` (`tools/mats/mats.cc:70-105`). -/
def mats : Tool Cols Mats where
  opts := ['h', 'v', 'o', '2', '3']
  init := {}
  step := colsStep
  finish s ops :=
    match ops with
    | [n, z, t, m] => if 1 ≤ int z ∧ 0 < num t ∧ 1 ≤ int m then .ok ⟨s, n, int z, num t, int m⟩ else .error .value
    | _ => .error .usage

/-- `cmd_line` of `intavg` (`tools/intavg/intavg.cc:43-68`). A failed assertion counts as refusal. -/
def intavg : Tool Unit (Str × Int) where
  opts := ['h', 'v', 'V']
  init := ()
  step s c _ := if c = 'h' then .error .help else if c = 'v' then .ok s else if c = 'V' then .ok s else .error .option
  finish _ ops :=
    match ops with
    | [n, z] => if 1 ≤ int z then .ok (n, int z) else .error .value
    | _ => .error .usage

structure TdAvg where
  comments : Bool
  name : Str
  /-- `none`: `td-ref.dat` if there is such a file -/
  ref : Option Str

/-- `cmd_line` of `tdavg` (`tools/tdavg/tdavg.cc:68-100`). -/
def tdavg : Tool Bool TdAvg where
  opts := ['h', 'v', 'V', 'c']
  init := false
  step s c _ :=
    if c = 'h' then .error .help else if c = 'v' then .ok s else if c = 'V' then .ok s else if c = 'c' then .ok true else .error .option
  finish s ops :=
    match ops with
    | [] => .ok ⟨s, ['t', 'd', '.', 'd', 'a', 't'], none⟩
    | [n] => .ok ⟨s, n, none⟩
    | [n, r] => .ok ⟨s, n, some r⟩
    | _ => .error .usage

/-! ## Moments, broadening -/

structure MomSet where
  one : Bool := false
  low : ℚ := 0
  /-- `none`: the largest number -/
  high : Option ℚ := none
  posonly : Bool := false
  negonly : Bool := false
  central : Bool := false

structure SpecMoments where
  set : MomSet
  name : Str
  Nz : Int

/-- The loop in `cmd_line` of `specmoments` (`tools/specmoments/specmoments.cc:72-98`). -/
def specmoments : Tool MomSet SpecMoments where
  opts := ['v', 'o', 'l', ':', 'h', ':', 'p', 'n', 'c']
  init := {}
  step s c a :=
    if c = 'v' then .ok s
    else if c = 'o' then .ok { s with one := true }
    else if c = 'l' then .ok { s with low := num a }
    else if c = 'h' then .ok { s with high := some (num a) }
    else if c = 'p' then .ok { s with posonly := true }
    else if c = 'n' then .ok { s with negonly := true }
    else if c = 'c' then .ok { s with central := true }
    else .error .option
  finish s ops :=
    match ops with
    | [n, z] => if 1 ≤ int z then .ok ⟨s, n, int z⟩ else .error .value
    | _ => .error .usage

/-- `cmd_line` of `specmoments` (`tools/specmoments/specmoments.cc:66-109`). -/
def specmomentsMain (argv : List Str) : Except Stop SpecMoments := if argv = [['-', 'h']] then .error .help else specmoments.main argv

structure BrSet where
  cumulative : Bool := false
  sumrules : Bool := false
  min : ℚ := 1 / 10000000
  max : ℚ := 2
  ratio : ℚ := 101 / 100
  cols : Cols := {}
  normalization : Bool := false
  gaussian : Bool := false
  /-- width of the final pass -/
  finalGauss : Option ℚ := none
  finalDer : Option ℚ := none
  accumulation : ℚ := 0
  low : ℚ := 0
  high : Option ℚ := none
  keeppos : Bool := true
  keepneg : Bool := true
  meshpos : Bool := true
  meshneg : Bool := true
  mesh : Str := []

structure Broaden where
  set : BrSet
  name : Str
  Nz : Int
  alpha : ℚ
  T : ℚ
  ratio0 : ℚ

/-- The checks at the end of `cmd_line` of `broaden` (`tools/broaden/broaden.hpp:314-332`). -/
def brFinish (s : BrSet) (n z a t : Str) (r : ℚ) : Except Stop Broaden :=
  if ¬ 1 ≤ int z then .error .value
  else if ¬ 0 < num a then .error .value
  else if ¬ 0 < num t then .error .value
  else if ¬ 0 < r then .error .value
  else if s.finalGauss.any (fun g => decide (g ≤ 0)) then .error .value
  else if s.finalDer.any (fun g => decide (g ≤ 0)) then .error .value
  else if s.meshpos = false ∧ s.meshneg = false then .error .value
  else .ok ⟨s, n, int z, num a, num t, r⟩

/-- `cmd_line` of `broaden` from the loop on (`tools/broaden/broaden.hpp:248-332`); `omega0_ratio` is `10⁻⁹` by default. -/
def broaden : Tool BrSet Broaden where
  opts := ['v', 'm', ':', 'M', ':', 'r', ':', 'o', '2', '3', 'n', 's', 'c', 'g', 'f', ':', 'x', ':', 'a', ':', 'l', ':', 'h', ':', 'P', 'N', 'A', 'B', 'L', ':']
  init := {}
  step s c a :=
    if c = 'c' then .ok { s with cumulative := true }
    else if c = 's' then .ok { s with sumrules := true }
    else if c = 'v' then .ok s
    else if c = 'm' then .ok { s with min := num a }
    else if c = 'M' then .ok { s with max := num a }
    else if c = 'r' then .ok { s with ratio := num a }
    else if c = 'o' then .ok { s with cols := { s.cols with one := true } }
    else if c = '2' then .ok { s with cols := { s.cols with nrcol := 2, col := 1 } }
    else if c = '3' then .ok { s with cols := { s.cols with nrcol := 2, col := 2 } }
    else if c = 'n' then .ok { s with normalization := true }
    else if c = 'g' then .ok { s with gaussian := true }
    else if c = 'f' then .ok { s with finalGauss := some (num a) }
    else if c = 'x' then .ok { s with finalDer := some (num a) }
    else if c = 'a' then .ok { s with accumulation := num a }
    else if c = 'l' then .ok { s with low := num a }
    else if c = 'h' then .ok { s with high := some (num a) }
    else if c = 'P' then .ok { s with keepneg := false }
    else if c = 'N' then .ok { s with keeppos := false }
    else if c = 'A' then .ok { s with meshneg := false }
    else if c = 'B' then .ok { s with meshpos := false }
    else if c = 'L' then .ok { s with mesh := a }
    else .error .option
  finish s ops :=
    match ops with
    | [n, z, a, t] => brFinish s n z a t (1 / 1000000000)
    | [n, z, a, t, r] => brFinish s n z a t (num r)
    | _ => .error .usage

/-- `cmd_line` of `broaden` (`tools/broaden/broaden.hpp:243-332`). -/
def broadenMain (argv : List Str) : Except Stop Broaden := if argv = [['-', 'h']] then .error .help else broaden.main argv

structure BwSet where
  min : ℚ := 1 / 10000000
  max : ℚ := 2
  ratio : ℚ := 101 / 100
  iters : Int := 10
  trim : ℚ := -999
  positivity : Bool := false
  bmin : ℚ := -999
  q : ℚ := 1
  savemore : Bool := false
  saveall : Bool := false
  dyn : ℚ := -999
  one : Bool := false

structure BwCmd where
  set : BwSet
  name : Str
  b0 : ℚ
  Nz : Int

/-- `cmd_line` of `bw` (`tools/bw/bw.cc:76-157`). -/
def bw : Tool BwSet BwCmd where
  opts := ['h', 'v', 'V', 'm', ':', 'M', ':', 'r', ':', 'n', ':', 't', ':', 'p', 'q', ':', 's', 'S', 'x', ':', 'd', ':', 'o']
  init := {}
  step s c a :=
    if c = 'h' then .error .help
    else if c = 'v' then .ok s
    else if c = 'V' then .ok s
    else if c = 'm' then .ok { s with min := num a }
    else if c = 'M' then .ok { s with max := num a }
    else if c = 'r' then .ok { s with ratio := num a }
    else if c = 'n' then .ok { s with iters := int a }
    else if c = 't' then .ok { s with trim := num a }
    else if c = 'p' then .ok { s with positivity := true }
    else if c = 'q' then .ok { s with q := num a }
    else if c = 's' then .ok { s with savemore := true }
    else if c = 'S' then .ok { s with saveall := true }
    else if c = 'x' then .ok { s with bmin := num a }
    else if c = 'd' then .ok { s with dyn := num a }
    else if c = 'o' then .ok { s with one := true }
    else .error .option
  finish s ops :=
    match ops with
    | [n, b, z] => if 0 < num b ∧ 1 ≤ int z then .ok ⟨s, n, num b, int z⟩ else .error .value
    | _ => .error .usage

/-! ## Integrals and transforms -/

/-- What `integ` prints. -/
inductive Part
  | total | pos | neg | abs | fermi
  deriving DecidableEq

structure IntegSet where
  T : ℚ := 1 / 10 ^ 99
  out : Part := .total

/-- `cmd_line` of `integ` (`tools/integ/integ.cc:72-113`). -/
def integ : Tool IntegSet (IntegSet × Str) where
  opts := ['h', 'v', 'V', 'w', 't', ':', 'T', ':', 'p', 'n', 'a', 'f']
  init := {}
  step s c a :=
    if c = 'h' then .error .help
    else if c = 'v' then .ok s
    else if c = 'V' then .ok s
    else if c = 'w' then .ok s
    else if c = 't' ∨ c = 'T' then .ok { s with T := num a }
    else if c = 'p' then .ok { s with out := .pos }
    else if c = 'n' then .ok { s with out := .neg }
    else if c = 'a' then .ok { s with out := .abs }
    else if c = 'f' then .ok { s with out := .fermi }
    else .error .option
  finish s ops :=
    match ops with
    | [f] => .ok (s, f)
    | _ => .error .usage

/-- Settings of `hilb` (`tools/hilb/hilb.hpp:278-289`). `width` and `scale` are the half-width and its reciprocal, `none` after a division by zero. `dos` are the
tables that are loaded, in this order; each replaces the one before. `outs` are the output files that are opened, the last one is used. -/
structure HilbSet where
  scale : Option ℚ := some 1
  width : Option ℚ := some 1
  G : Bool := false
  dos : List Str := []
  outs : List Str := []
  shiftx : ℚ := 0
  shifty : ℚ := 0

/-- `1/x`. -/
def recip (x : ℚ) : Option ℚ := if x = 0 then none else some (1 / x)

inductive HilbCmd
  | stream (s : HilbSet) (file : Str)
  | one (s : HilbSet) (x y : ℚ)
  | files (s : HilbSet) (reIn imIn reOut imOut : Str)
  /-- the message on the usage, and success -/
  | nothing

/-- `parse_param_run` of `hilb` (`tools/hilb/hilb.hpp:431-507`) without the work itself. `V` is in the list of options but has no `case`. -/
def hilb : Tool HilbSet HilbCmd where
  opts := ['h', 'G', 'd', ':', 'v', 'V', 's', ':', 'B', ':', 'o', ':', 'x', ':', 'y', ':']
  init := {}
  step s c a :=
    if c = 'h' then .error .help
    else if c = 'G' then .ok { s with G := true }
    else if c = 'd' then .ok { s with dos := s.dos ++ [a] }
    else if c = 'v' then .ok s
    else if c = 's' then .ok { s with scale := some (num a), width := recip (num a) }
    else if c = 'B' then .ok { s with width := some (num a), scale := recip (num a) }
    else if c = 'o' then .ok { s with outs := s.outs ++ [a] }
    else if c = 'x' then .ok { s with shiftx := num a }
    else if c = 'y' then .ok { s with shifty := num a }
    else .error .option
  finish s ops :=
    match ops with
    | [f] => .ok (.stream s f)
    | [x, y] => .ok (.one s (num x) (num y))
    | [a, b, c, d] => .ok (.files s a b c d)
    | _ => .ok .nothing

/-! ## Matrices -/

/-- `parse_param` and `run` of `diag` (`tools/diag/diag.cc:192-242`); the operand is the input file. With a different number of operands the message on the usage is
printed (with success). -/
def diag : Tool (Mx.DOpt ℚ) (Mx.DOpt ℚ × Str) where
  opts := ['h', 't', 'T', 'b', 'B', 'v', 'V', 'q', 'o', ':', 'O', ':', 's', ':']
  init := ⟨true, false, 1, none, none⟩
  step s c a :=
    if c = 'h' then .error .help
    else if c = 't' then .ok { s with text := false }
    else if c = 'T' then .ok { s with text := true }
    else if c = 'b' then .ok { s with bin := false }
    else if c = 'B' then .ok { s with bin := true }
    else if c = 'v' then .ok s
    else if c = 'V' then .ok s
    else if c = 'q' then .ok s
    else if c = 'o' then .ok { s with fnVal := some a }
    else if c = 'O' then .ok { s with fnVec := some a }
    else if c = 's' then .ok { s with scale := num a }
    else .error .option
  finish s ops :=
    match ops with
    | [f] => .ok (s, f)
    | _ => .error .usage

/-- `parse_param` and `run` of `unitary` (`tools/unitary/unitary.hpp:48-67`, `98-108`). -/
def unitary : Tool (Mx.UOpt ℚ) (Mx.UOpt ℚ × Str × Str × Str) where
  opts := ['h', 'b', 'B', 'q', 'v', 'V', 't', 'l', 's', ':', 'o', ':', 'c', ':']
  init := ⟨false, false, false, 1, 1 / 10 ^ 14, none⟩
  step s c a :=
    if c = 'h' then .error .help
    else if c = 'b' then .ok { s with bin := false }
    else if c = 'B' then .ok { s with bin := true }
    else if c = 'q' then .ok s
    else if c = 'v' then .ok s
    else if c = 'V' then .ok s
    else if c = 't' then .ok { s with first := true }
    else if c = 'l' then .ok { s with last := true }
    else if c = 's' then .ok { s with scale := num a }
    else if c = 'o' then .ok { s with out := some a }
    else if c = 'c' then .ok { s with tol := num a }
    else .error .option
  finish s ops :=
    match ops with
    | [a, b, c] => .ok (s, a, b, c)
    | _ => .error .usage

structure CalcSet where
  /-- number of channels, and whether names carry its number -/
  channels : Option Int := none
  sc : Bool := false
  prefixed : Bool := false

/-- `parse_param` of `matrix` (`tools/matrix/parser.yy:208-246`). `V` has a `case` but is not in the list of options. -/
def matrix : Tool CalcSet (CalcSet × List Str) where
  opts := ['h', 'c', ':', 'v', 'p', 'P', 's']
  init := {}
  step s c a :=
    if c = 'h' then .error .help
    else if c = 'v' then .ok s
    else if c = 'c' then .ok { s with channels := some (int a) }
    else if c = 's' then .ok { s with sc := true }
    else if c = 'V' then .ok s
    else if c = 'p' then .ok { s with prefixed := false }
    else if c = 'P' then .ok { s with prefixed := true }
    else .error .option
  finish s ops := .ok (s, ops)

structure H5Set where
  scalar : Bool := false
  truncate : Bool := false

/-- `parse_cmd_line` of `h5write` (`tools/h5write/h5write.hpp:34-55`). -/
def h5write : Tool H5Set (H5Set × Str × Str × Str) where
  opts := ['h', 's', 't']
  init := {}
  step s c _ :=
    if c = 'h' then .error .help
    else if c = 's' then .ok { s with scalar := true }
    else if c = 't' then .ok { s with truncate := true }
    else .error .option
  finish s ops :=
    match ops with
    | [f, p, i] => .ok (s, f, p, i)
    | _ => .error .usage

/-- An event as an option of `resample` (`tools/resample/resample.hpp:83-96`). -/
def resOpt : Ev → Resample.Opt
  | .opt c a =>
    if c = 'h' then .h
    else if c = 'v' then .v
    else if c = 'e' then .e
    else if c = 'p' then .p (a.getD [])
    else if c = 'a' then .a (a.getD [])
    else if c = 'b' then .b (a.getD [])
    else .bad
  | .unknown _ => .bad
  | .missing _ => .bad

/-- The program `resample` from its command line on. -/
def resample {K : Type} [LinearOrder K] (F : Resample.Fmt K) (S : Resample.Spline K) (argv : List Str) (fs : Resample.Files) :
    Except Resample.Stop Resample.Files :=
  Resample.main F S ((getopt ['h', 'v', 'e', 'p', ':', 'a', ':', 'b', ':'] none argv).1.map resOpt) (getopt ['h', 'v', 'e', 'p', ':', 'a', ':', 'b', ':'] none argv).2 fs

end Verif.Cmd
