import Verif.Seed.Model
/-!
# The program `instantiate`: command line, parameter file, files that are written and removed

`tools/instantiate/instantiate.cc`. The effects on the file system are a list of operations, in the order in which the program performs them. Directories,
permissions and failures of the disk are not modelled, except where a theorem speaks of an interrupted run.
-/

namespace Verif.Seed

open Verif.Text
open Verif.Invar (Label)
open Verif.DataFile (Par)

/-! ## Command line -/

/-- `Options` (`instantiate.cc:34-40`). -/
structure Opts where
  param : Str := "param".toList
  tdir : Str := "template".toList
  wilson : Bool := false
  diag : Bool := false
  gen : Bool := false
  deriving DecidableEq

inductive Cmd
  | help
  | bad
  | run (o : Opts)
  deriving DecidableEq

/-- `parse_options` (`instantiate.cc:46-79`). -/
def parseOpts : List Str → Opts → Cmd
  | [], o => .run o
  | a :: r, o =>
    if a = "-h".toList ∨ a = "--help".toList then .help
    else if a = "--wilson-only".toList then parseOpts r { o with wilson := true }
    else if a = "--diag-seed-only".toList then parseOpts r { o with diag := true }
    else if a = "--generate-temporaries".toList then parseOpts r { o with gen := true }
    else if a = "--param".toList then
      match r with
      | [] => .bad
      | v :: r => parseOpts r { o with param := v }
    else if a = "--template-dir".toList then
      match r with
      | [] => .bad
      | v :: r => parseOpts r { o with tdir := v }
    else .bad

/-! ## Parameter file -/

/-- `ParamSections` (`instantiate.cc:107-110`): lines by section, values by section and key. The newest entry comes first in `values`. -/
structure Secs where
  lines : List (Str × List Str) := []
  values : List ((Str × Str) × Str) := []
  deriving DecidableEq

/-- `sections.lines[section].push_back(line)`. -/
def pushLine (s l : Str) : List (Str × List Str) → List (Str × List Str)
  | [] => [(s, [l])]
  | (a, ls) :: r => if a = s then (a, ls ++ [l]) :: r else (a, ls) :: pushLine s l r

/-- The section after a line (`instantiate.cc:120-123`). -/
def newSection (sec l : Str) : Str :=
  let t := strip l
  if 2 ≤ t.length ∧ t.head? = some '[' ∧ t.getLast? = some ']' then (t.drop 1).dropLast else sec

/-- The loop of `parse_param_sections` (`instantiate.cc:119-131`). -/
def secLoop : List Str → Str → Secs → Secs
  | [], _, s => s
  | l :: ls, sec0, s =>
    let sec := newSection sec0 l
    if sec = [] then secLoop ls sec s
    else
      let s1 : Secs := { s with lines := pushLine sec l s.lines }
      if (strip l) = [] ∨ (strip l).head? = some '#' ∨ (strip l).head? = some '[' then secLoop ls sec s1
      else
        match Param.splitEq (strip l) with
        | none => secLoop ls sec s1
        | some (a, b) => secLoop ls sec { s1 with values := ((sec, strip a), strip b) :: s1.values }

/-- `parse_param_sections` (`instantiate.cc:112-133`). -/
def sections (text : Str) : Secs := secLoop (Param.lines text) [] {}

/-- `param_value` (`instantiate.cc:402-408`). -/
def Secs.get (s : Secs) (sec k : Str) : Option Str := (s.values.find? fun e => e.1 = (sec, k)).map (·.2)

/-- `optional_bool_param` (`instantiate.cc:410-419`); `none` is the exception. -/
def Secs.flag (s : Secs) (sec k : Str) : Option Bool :=
  match s.get sec k with
  | none => some false
  | some v => if v = "true".toList then some true else if v = "false".toList then some false else none

/-! ## Files -/

/-- Names of files, and what is in them. -/
abbrev FS := Str → Option Str

inductive Op
  | write (fn t : Str)
  | remove (fn : Str)
  /-- all files of the current directory whose names begin so -/
  | removePre (p : Str)
  deriving DecidableEq

def Op.run (fs : FS) : Op → FS
  | .write fn t => fun n => if n = fn then some t else fs n
  | .remove fn => fun n => if n = fn then none else fs n
  | .removePre p => fun n => if p.isPrefixOf n ∧ '/' ∉ n then none else fs n

def runOps (l : List Op) (fs : FS) : FS := l.foldl Op.run fs

/-- `read_text_file(resolve_template_file(...))` (`instantiate.cc:88-105`). -/
def lookup (fs : FS) (tdir fn : Str) : Option Str :=
  if fn.head? = some '/' then fs fn
  else
    match fs (tdir ++ '/' :: fn) with
    | some t => some t
    | none => fs fn

/-- The names in `cleanup_instantiation_temporaries` (`instantiate.cc:161-164`). -/
def tempNames : List Str :=
  ["xi.dat".toList, "zeta.dat".toList, "theta.dat".toList, "xi1.dat".toList, "zeta1.dat".toList, "theta1.dat".toList, "val".toList, "vec".toList,
    "mat".toList, "mat.res".toList, "ham".toList, "param.param".toList, "param.dmft".toList, "param.extra".toList, "solverlog".toList, "solverlogneg".toList]

/-- The file of a section (`instantiate.cc:137, 168`). -/
def secFile (param sec : Str) : Str := param ++ '.' :: sec

/-- `cleanup_instantiation_temporaries` (`instantiate.cc:160-172`). -/
def cleanup (param : Str) (s : Secs) : List Op :=
  tempNames.map .remove ++ (s.lines.map (fun e => Op.remove (secFile param e.1)) ++ [.removePre "vec.".toList, .removePre "ham.".toList])

/-- `write_param_section_files` (`instantiate.cc:135-141`). -/
def sectionWrites (param : Str) (s : Secs) : List Op := s.lines.map fun e => .write (secFile param e.1) (e.2.flatMap fun l => l ++ ['\n'])

/-! ## The runs -/

/-- A channel of the Wilson chain: `xi`, `zeta`, `theta`. -/
abbrev Chan (K : Type) := List K × List K × K

/-- What is not part of this file: the parameters of the main program (`make_instantiate_params` and `initialize_template_symmetry`, `instantiate.cc:674-686`;
they are read once here), the coefficients of the Wilson chain (`calculate_from_file`), the evaluator, `strtod`, the eigensolver, and the printed and
binary forms of numbers. -/
structure World (K : Type) where
  par : FS → Str → Option Par
  chain : FS → Str → Option (List (Chan K))
  env : List (Str × K) → List (Chan K) → Inst.Env K
  real : Str → Option K
  diag : Nat → (Nat → Nat → K) → Option (List K × (Nat → Nat → K))
  fmt : Nat → K → Str
  bin : Nat → (Nat → Nat → K) → Str

variable {K : Type} [Field K] [LinearOrder K]

/-- `write_wilson_channel` (`instantiate.cc:200-218`). -/
def chanWrites (W : World K) (c : Chan K) : List Op :=
  [.write "xi1.dat".toList (c.1.flatMap fun x => W.fmt 16 x ++ ['\n']), .write "zeta1.dat".toList (c.2.1.flatMap fun x => W.fmt 16 x ++ ['\n']),
    .write "theta1.dat".toList (W.fmt 16 c.2.2 ++ ['\n'])]

/-- `numeric_variables` (`instantiate.cc:190-198`) of the section `extra` (`instantiate.cc:657`). Of several settings of a key the last one counts. -/
def Secs.vars (W : World K) (s : Secs) : List (Str × K) :=
  s.values.filterMap fun e => if e.1.1 = "extra".toList ∧ s.get "extra".toList e.1.2 = some e.2 then (W.real e.2).map fun x => (e.1.2, x) else none

/-- The temporary files of one subspace (`instantiate.cc:467-495`). -/
def subFiles (W : World K) (C : Ctx K) (fac : K) (q z d : Str) : List Op :=
  match parseInvar C.P.invdim q, parseSize z, diagFile d with
  | some I, some n, some fn =>
    if n = 0 then []
    else
      match C.evalFile fn with
      | none => []
      | some m =>
        if m.rows = n ∧ m.cols = n then
          let t := m.entries.flatMap fun r => rowText (r.map (W.fmt 18))
          [.write ("ham.".toList ++ insertor ['.'] I) t, .write "ham".toList t] ++
            (match C.diag n (entry m.entries) with
            | none => []
            | some (w, v) =>
              [.write "val".toList ((w.map (· * fac)).flatMap fun x => W.fmt 18 x ++ ['\n']), .write "vec".toList (W.bin n v),
                .write ("vec.".toList ++ insertor ['.'] I) (W.bin n v)])
        else []
  | _, _, _ => []

/-- The temporary files of all subspaces (`instantiate.cc:460-500`), until an exception. -/
def seedFiles (W : World K) (C : Ctx K) : Nat → Option K → List (Sub K) → St K → List Op
  | 0, _, _, _ => []
  | n + 1, fac, done, s =>
    let a := s.next
    let b := a.2.next
    let c := b.2.next
    match a.1, b.1, c.1 with
    | some q, some z, some d =>
      match (match fac with | some f => some f | none => factor c.2.scale) with
      | none => []
      | some f =>
        subFiles W C f q z d ++
          (match readSub C f done q z d with
          | none => []
          | some x => seedFiles W C n (some f) (done ++ [x]) c.2)
    | _, _, _ => []

/-- The temporary files that are written for a template. -/
def templateFiles (W : World K) (C : Ctx K) (template : Str) : List Op :=
  match St.next ⟨Param.lines template, none, []⟩ with
  | (none, _) => []
  | (some h, s) =>
    match readHeader h with
    | none => []
    | some (ch, _, n) => if ch = 1 then seedFiles W C n none [] s else []

/-- What the instantiation is given. Files are looked up as they are before the temporary files are written. -/
def ctx (W : World K) (P : Par) (nmax : Nat) (s : Secs) (c : Chan K) (fs : FS) (tdir : Str) : Ctx K :=
  ⟨P, nmax, W.env (s.vars W) [c], lookup fs tdir, W.diag, c.1, c.2.1, W.fmt⟩

/-- The energy that is printed: only the subspaces are read (`instantiate.cc:707-713`). -/
def seedOnly (C : Ctx K) (template : Str) : Option K :=
  match St.next ⟨Param.lines template, none, []⟩ with
  | (none, _) => none
  | (some h, s) =>
    match readHeader h with
    | none => none
    | some (ch, _, n) => if ch = 1 then (readSeed C n s).map fun p => p.1.ground else none

/-- Effects, and the energy that is printed on success. -/
abbrev Run (K : Type) := List Op × Option K

/-- `run_diag_seed_only` (`instantiate.cc:695-714`). -/
def diagSeed (W : World K) (o : Opts) (fs : FS) : Run K :=
  match fs o.param with
  | none => ([], none)
  | some text =>
    let s := sections text
    let w0 := sectionWrites o.param s
    let fs0 := runOps w0 fs
    match W.par fs0 o.param, W.chain fs0 o.param with
    | some P, some [c] =>
      let w1 := w0 ++ chanWrites W c
      let fs1 := runOps w1 fs
      let C := ctx W P 0 s c fs1 o.tdir
      match lookup fs1 o.tdir "data.in".toList with
      | none => (w1, none)
      | some t => (w1 ++ templateFiles W C t, seedOnly C t)
    | _, _ => (w0, none)

/-- `run_full_instantiation` (`instantiate.cc:716-756`) without the clean-up. -/
def fullBody (W : World K) (o : Opts) (s : Secs) (fs : FS) : Run K :=
  let w0 := if o.gen then sectionWrites o.param s else []
  let fs0 := runOps w0 fs
  match W.par fs0 o.param, W.chain fs0 o.param with
  | some P, some [c] =>
    let w1 := w0 ++ (if o.gen then chanWrites W c else [])
    let fs1 := runOps w1 fs
    match (s.get "param".toList "Nmax".toList).bind parseSize, s.flag "param".toList "polarized".toList with
    | some nmax, some false =>
      let C := ctx W P nmax s c fs1 o.tdir
      match lookup fs1 o.tdir "data.in".toList with
      | none => (w1, none)
      | some t =>
        let w2 := w1 ++ (if o.gen then templateFiles W C t else [])
        match instantiate C t with
        | none => (w2, none)
        | some (out, e) => (w2 ++ [.write "data".toList out], some e)
    | _, _ => (w1, none)
  | _, _ => (w0, none)

/-- `run_full_instantiation` (`instantiate.cc:716-756`): the clean-up is done by a destructor, also after an exception (174-188). -/
def full (W : World K) (o : Opts) (fs : FS) : Run K :=
  match fs o.param with
  | none => ([], none)
  | some text =>
    let s := sections text
    let b := fullBody W o s fs
    (b.1 ++ (if o.gen then [] else cleanup o.param s), b.2)

/-- Exit of the program. -/
inductive Exit (K : Type)
  | help
  | failure
  /-- `--wilson-only` -/
  | done
  | energy (e : K)

/-- `run_wilson_only` (`instantiate.cc:758-763`). -/
def wilsonOnly (W : World K) (o : Opts) (fs : FS) : List Op × Exit K :=
  match W.chain fs o.param with
  | some [c] => (chanWrites W c, .done)
  | _ => ([], .failure)

def Run.exit (r : Run K) : List Op × Exit K :=
  (r.1, match r.2 with | some e => .energy e | none => .failure)

/-- `main` (`instantiate.cc:767-785`). -/
def main (W : World K) (args : List Str) (fs : FS) : List Op × Exit K :=
  match parseOpts args {} with
  | .help => ([], .help)
  | .bad => ([], .failure)
  | .run o =>
    if o.wilson ∧ o.diag then ([], .failure)
    else if o.wilson then wilsonOnly W o fs
    else if o.diag then (diagSeed W o fs).exit
    else (full W o fs).exit

end Verif.Seed
