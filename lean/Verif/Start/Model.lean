import Verif.Text.Model
import Verif.Symm.Classes
/-!
# From the command line to the first step

The part of the program that runs before a calculation: the check of the threading layer (`c++/openmp.hpp`), the decision whether to run (`c++/nrg.cc:202-243`), the
work directory (`c++/nrg.cc:212-218`, `c++/workdir.hpp`), the kind of numbers (`c++/misc.hpp:171-185`) and the choice of the symmetry (`c++/mk_sym.hpp`).

Not modelled: the messages, the report of `report_openMP`, floating-point traps, the compile-time information of the start message.
-/

namespace Verif.Start
open Verif.Text (Str natStr stripLeading storeName kinds tmpName lastStored)
open Verif.Invar (Label)
open Verif.Symm (builtins)

/-! ## Threading layer -/

/-- The build options that matter (`c++/openmp.hpp:19-45`): the library is MKL, it is linked through `mkl_rt`, the build links an OpenMP runtime for it, and the
configured layer. -/
structure Build where
  mkl : Bool
  rt : Bool
  omp : Bool
  layer : Str

/-- `lower` (`c++/openmp.hpp:63-66`), for ASCII. -/
def lower (s : Str) : Str := s.map Char.toLower

/-- The names understood by `normalize_mkl_threading_layer`, in the order of the tests. -/
def layerNames : List (Str × Str) := [
  ("auto".toList, "AUTO".toList), ("compiler".toList, "COMPILER".toList),
  ("gnu".toList, "GNU".toList), ("gnu_thread".toList, "GNU".toList), ("gnu openmp".toList, "GNU".toList),
  ("intel".toList, "INTEL".toList), ("intel_thread".toList, "INTEL".toList), ("intel openmp".toList, "INTEL".toList),
  ("llvm".toList, "LLVM".toList), ("llvm_thread".toList, "LLVM".toList), ("llvm openmp".toList, "LLVM".toList),
  ("tbb".toList, "TBB".toList), ("sequential".toList, "SEQUENTIAL".toList), ("seq".toList, "SEQUENTIAL".toList)]

/-- `normalize_mkl_threading_layer` (`c++/openmp.hpp:73-83`). -/
def normalize (s : Str) : Str :=
  match layerNames.find? fun p => p.1 == lower s with
  | some p => p.2
  | none => lower s

/-- `configured_mkl_threading_layer` (`c++/openmp.hpp:85`). -/
def configured (b : Build) : Str := normalize b.layer

/-- `environment_mkl_threading_layer` (`c++/openmp.hpp:87-90`); the argument is the value of `MKL_THREADING_LAYER`. -/
def fromEnv : Option Str → Str
  | some s => normalize s
  | none => []

/-- `active_mkl_threading_layer` (`c++/openmp.hpp:92-97`). -/
def active (b : Build) (e : Option Str) : Str :=
  if fromEnv e ≠ [] then fromEnv e
  else if configured b = "AUTO".toList then [] else configured b

/-- `mkl_layer_openmp_family(layer)` is not empty (`c++/openmp.hpp:99-104`). -/
def hasFamily (l : Str) : Bool := l == "GNU".toList || l == "INTEL".toList || l == "LLVM".toList

/-- `set_mkl_threading_layer_from_build` (`c++/openmp.hpp:116-130`): the value of the variable afterwards. -/
def setFromBuild (b : Build) (e : Option Str) : Option Str :=
  if b.mkl then
    if configured b = "AUTO".toList ∨ configured b = "COMPILER".toList ∨ e ≠ none then e else some (configured b)
  else e

/-- `validate_mkl_threading_runtime` (`c++/openmp.hpp:195-238`); `vis` tells whether both OpenMP functions are found in the process. -/
def validate (b : Build) (vis : Bool) (e : Option Str) : Bool :=
  if !b.mkl then true
  else if !hasFamily (active b e) then true
  else if b.rt && (configured b == "AUTO".toList || configured b == "COMPILER".toList || !b.omp) then false
  else if b.rt && active b e != configured b then false
  else vis

/-- `prepare_parallel_runtime` (`c++/openmp.hpp:465-468`): the answer, and the value of the variable afterwards. -/
def prepare (b : Build) (vis : Bool) (e : Option Str) : Bool × Option Str :=
  (validate b vis (setFromBuild b e), setFromBuild b e)

/-! ## Decision and work directory -/

/-- `help` (`c++/nrg.cc:202-210`); the arguments without the name of the program. -/
def wantsHelp : List Str → Bool
  | a :: _ => a == "-h".toList
  | [] => false

/-- What the first process decides (`c++/nrg.cc:228-240`): `none` to continue, otherwise the exit status. -/
def decision (args : List Str) (data param : Bool) : Option Nat :=
  if wantsHelp args then some 0
  else if !data then some 1
  else if !param then some 1
  else none

/-- `set_workdir(argc, argv)` (`c++/nrg.cc:212-218`): the directory in which the work directory is made; `env` is the value of `NRG_WORKDIR`. -/
def scratchOf (env : Option Str) (args : List Str) : Str :=
  match args with
  | [a, d] => if a = "-w".toList then d else env.getD ['.']
  | _ => env.getD ['.']

/-- `set_workdir(dir)` for programs that use the library (`c++/workdir.hpp:74-79`). -/
def scratchEmbedded (env : Option Str) (dir : Str) : Str := if dir ≠ [] then dir else env.getD ['.']

/-- `dtemp` (`c++/workdir.hpp:22-30`): the template `dir + "/XXXXXX"` with the six characters replaced by what the system chooses. -/
def workName (dir six : Str) : Str := dir ++ '/' :: six

/-! ## Processes of a job at start-up -/

/-- Where a process is in `main` (`c++/nrg.cc:220-254`). -/
inductive Ph
  /-- before the check of the threading layer -/
  | start
  /-- in the broadcast of the status -/
  | bcast
  /-- has returned `1` after its own check -/
  | failed
  /-- has returned the status that was broadcast -/
  | left (c : Nat)
  /-- runs the calculation -/
  | run
  deriving DecidableEq

/-- What follows the broadcast (`c++/nrg.cc:242-252`). -/
def after : Option Nat → Ph
  | some c => .left c
  | none => .run

/-- State of all processes; `sent` tells that process `0` has entered the broadcast. -/
structure L where
  ph : Nat → Ph
  sent : Bool

/-- Process `r` moves to `p`. -/
def L.to (s : L) (r : Nat) (p : Ph) : L := ⟨fun q => if q = r then p else s.ph q, s.sent || (r == 0 && p == .bcast)⟩

/-- One step of one process (`c++/nrg.cc:226-252`). There are `n + 1` processes; `ok r` is the answer of `prepare_parallel_runtime` in process `r`, `dec` the decision of
process `0`. With `sync` the broadcast returns on process `0` only after all others have received; otherwise it may return at once. -/
inductive Step (n : Nat) (sync : Bool) (ok : Nat → Bool) (dec : Option Nat) : L → L → Prop
  | fail (s : L) (r : Nat) : r ≤ n → s.ph r = .start → ok r = false → Step n sync ok dec s (s.to r .failed)
  | pass (s : L) (r : Nat) : r ≤ n → s.ph r = .start → ok r = true → Step n sync ok dec s (s.to r .bcast)
  | recv (s : L) (r : Nat) : 1 ≤ r → r ≤ n → s.ph r = .bcast → s.sent = true → Step n sync ok dec s (s.to r (after dec))
  | root (s : L) : s.ph 0 = .bcast → (sync = true → ∀ r, 1 ≤ r → r ≤ n → s.ph r = after dec) →
      Step n sync ok dec s (s.to 0 (after dec))

/-- The start of the job. -/
def L.init : L := ⟨fun _ => .start, false⟩

/-- `k` steps. -/
inductive Steps (n : Nat) (sync : Bool) (ok : Nat → Bool) (dec : Option Nat) : Nat → L → Prop
  | zero : Steps n sync ok dec 0 L.init
  | succ {k : Nat} {s t : L} : Steps n sync ok dec k s → Step n sync ok dec s t → Steps n sync ok dec (k + 1) t

/-! ## Files below the work directories -/

variable {D : Type}

/-- A calculation that shares a scratch directory with others: running in its work directory, or ended. -/
inductive Life
  | notYet
  | on (six : Str)
  | ended
  deriving DecidableEq

/-- Files by path, directories below the scratch directory by their last component, and the calculations. -/
structure World (D : Type) where
  fs : Str → Option D
  dirs : Str → Bool
  life : Nat → Life

/-- How a program ends. `main` has no `try`: an exception that leaves it (`my_assert`, `c++/portabil.hpp:55-65`) ends the program without running the destructors of
its local objects, and so does `exit` (`my_assert_equal`, `my_assert_not_reached`, `c++/portabil.hpp:68-88`; `finite_test_fnc`, `c++/portabil.hpp:44-53`). -/
inductive End
  | returned
  | uncaught
  | exited
  deriving DecidableEq

/-- What happens in the scratch directory. -/
inductive Ev (D : Type)
  /-- calculation `i` makes its work directory (`c++/workdir.hpp:40-46`); the six characters are chosen by `mkdtemp` -/
  | begin (i : Nat) (six : Str)
  /-- calculation `i` writes a file in its work directory -/
  | put (i : Nat) (name : Str) (x : D)
  /-- calculation `i` removes a file in its work directory -/
  | del (i : Nat) (name : Str)
  /-- calculation `i` ends -/
  | fin (i : Nat) (e : End)

/-- `p` is a path below `root/six`. -/
def below (root six p : Str) : Prop := (workName root six ++ ['/']) <+: p

instance (root six p : Str) : Decidable (below root six p) := inferInstanceAs (Decidable (_ <+: _))

/-- The path of a file in a work directory (`workdir + "/" + …`, `c++/workdir.hpp:53-58`). -/
def inWork (root six name : Str) : Str := workName root six ++ '/' :: name

/-- The directory is removed with everything in it (`remove_workdir`, `c++/workdir.hpp:59-68`, called by the destructor `c++/workdir.hpp:69-71`). -/
def World.removeAll (root six : Str) (w : World D) : World D :=
  { w with fs := fun p => if below root six p then none else w.fs p, dirs := fun d => if d = six then false else w.dirs d }

/-- Calculation `i` gets the state `l`. -/
def World.setLife (w : World D) (i : Nat) (l : Life) : World D := { w with life := fun j => if j = i then l else w.life j }

/-- The file at `p` becomes `x`. -/
def World.setFile (w : World D) (p : Str) (x : Option D) : World D := { w with fs := fun q => if q = p then x else w.fs q }

/-- One event; `none` if it cannot happen. `mkdtemp` chooses six characters without `/` such that the directory does not exist. -/
def World.step (root : Str) (w : World D) : Ev D → Option (World D)
  | .begin i six =>
    if w.life i = .notYet ∧ six.length = 6 ∧ '/' ∉ six ∧ w.dirs six = false then
      some ({ w with dirs := fun d => if d = six then true else w.dirs d }.setLife i (.on six))
    else none
  | .put i name x =>
    match w.life i with
    | .on six => some (w.setFile (inWork root six name) (some x))
    | _ => none
  | .del i name =>
    match w.life i with
    | .on six => some (w.setFile (inWork root six name) none)
    | _ => none
  | .fin i e =>
    match w.life i with
    | .on six => some ((if e = .returned then w.removeAll root six else w).setLife i .ended)
    | _ => none

/-- Several events. -/
def World.steps (root : Str) : World D → List (Ev D) → Option (World D)
  | w, [] => some w
  | w, e :: es => (w.step root e).bind fun w' => World.steps root w' es

/-! ## Kind of numbers -/

/-- The text contains the word (`std::string::find`). -/
def hasWord (word : Str) : Str → Bool
  | [] => word.isPrefixOf []
  | c :: s => word.isPrefixOf (c :: s) || hasWord word s

/-- The loop of `complex_data` (`c++/misc.hpp:171-185`) over the next `n` lines. -/
def scanHeader : Nat → List Str → Bool
  | 0, _ => false
  | _, [] => false
  | n + 1, l :: ls =>
    match stripLeading l with
    | [] => scanHeader n ls
    | c :: t => if c ≠ '#' then false else if hasWord "COMPLEX".toList (c :: t) then true else scanHeader n ls

/-- `complex_data` for a file with these lines. -/
def complexData (lines : List Str) : Bool := scanHeader 64 lines

/-! ## Symmetry -/

/-- Which symmetries are compiled in (`c++/mk_sym.hpp:15-46`): `NRG_SYM_MORE` and `NRG_SYM_ALL`, two independent options (`CMakeLists.txt:584-585`). -/
structure Level where
  more : Bool
  all : Bool

/-- Names without a condition (`c++/mk_sym.hpp:53-54`). -/
def baseNames : List String := ["QS", "QSZ"]

/-- Names with `NRG_SYM_MORE` (`c++/mk_sym.hpp:55-61`). -/
def moreNames : List String := ["ISO", "ISO2", "ISOSZ", "SPSU2", "SPU1"]

/-- Names with `NRG_SYM_ALL` (`c++/mk_sym.hpp:62-84`). -/
def allNames : List String := ["DBLQSZ", "DBLSU2", "DBLISOSZ", "ISOLR", "ISO2LR", "ISOSZLR", "NONE", "P", "PP", "SL", "SL3", "SPSU2LR", "SPSU2T", "SPU1LR", "SU2",
  "QSLR", "QST", "QSTZ", "QSZTZ", "QSZLR", "QJ", "U1"]

/-- Names for complex numbers only (`c++/mk_sym.hpp:85-88`). -/
def complexNames : List String := ["SPSU2C3", "QSC3"]

/-- `get` finds the name (`c++/mk_sym.hpp:50-91`). Each `mk_X` makes an object of the class with
this name (`c++/sym-X.cc`). -/
def served (lv : Level) (cplx : Bool) (name : String) : Bool :=
  baseNames.contains name || (lv.more && moreNames.contains name) || (lv.all && allNames.contains name)
    || (lv.all && cplx && complexNames.contains name)

/-- States of a site and the number of combinations (`set_channels_and_combs`, `c++/params.hpp:583-585`). -/
def combsOf (name : String) (channels : Nat) (sub : Bool) : Nat :=
  let site := 2 ^ (if name = "SL" ∨ name = "SL3" then 1 else 2)
  if sub then site else site ^ channels

/-- Outcome of `set_symmetry`: an exception or `exit` with a message, or assignments to elements after the end of a vector. -/
inductive SymErr
  | unknown
  | refused
  | outside
  deriving DecidableEq

/-- The table selected by `switch (P.channels)` or protected by `my_assert(P.channels == …)`. -/
def tableFor (name : String) (channels : Nat) : Option (List (Label × Label)) :=
  (builtins.find? fun b => b.symtype == name && b.channels == channels).map fun b => b.sym.table

/-- Classes whose `load()` takes the table of one channel with `substeps` (`c++/symmetry/sym-QS-impl.hpp:29-54`, `c++/symmetry/sym-QSZ-impl.hpp:32-53`, `c++/symmetry/sym-SPSU2-impl.hpp:28-52`,
`c++/symmetry/sym-SPU1-impl.hpp:29-46`). -/
def subNames : List String := ["QS", "QSZ", "SPSU2", "SPU1"]

/-- Classes whose `load()` refuses `substeps` (`c++/symmetry/sym-QST-impl.hpp:36`, `c++/symmetry/sym-QSTZ-impl.hpp:32`, `c++/symmetry/sym-QSZTZ-impl.hpp:26`, `c++/symmetry/sym-SPSU2T-impl.hpp:35`). -/
def noSubNames : List String := ["QST", "QSTZ", "QSZTZ", "SPSU2T"]

/-- The assignments made by `load()`; `none` if it refuses. The class `QJ` does not look at the number of channels (`c++/symmetry/sym-QJ-impl.hpp:34-37`). -/
def loadTable (name : String) (channels : Nat) (sub : Bool) : Option (List (Label × Label)) :=
  if name = "QJ" then tableFor "QJ" 3
  else if sub = true ∧ noSubNames.contains name then none
  else if sub = true ∧ subNames.contains name then tableFor name 1
  else tableFor name channels

/-- The assignments `In[k] = …; QN[k] = …;` to vectors, from index `k` on; `none` if one is outside. -/
def fill {A : Type} : Nat → List A → List A → Option (List A)
  | _, v, [] => some v
  | k, v, x :: xs => if k < v.length then fill (k + 1) (v.set k x) xs else none

/-- The symmetry object: number of combinations, and the entries of `In` and `QN`. -/
structure SymObj where
  combs : Nat
  entries : List (Label × Label)

/-- `set_symmetry` (`c++/mk_sym.hpp:95-107`): the vectors are made with `combs + 1` elements without quantum numbers (`c++/symmetry.hpp:79-80`; `invdim` is `0` at this
moment), `load` assigns from index `1` on, `erase_first` (`c++/symmetry.hpp:74-77`) drops the first element. -/
def setSymmetry (lv : Level) (cplx : Bool) (name : String) (channels : Nat) (sub : Bool) : Except SymErr SymObj :=
  if served lv cplx name = false then .error .unknown
  else
    match loadTable name channels sub with
    | none => .error .refused
    | some t =>
      match fill 1 (List.replicate (combsOf name channels sub + 1) ([], [])) t with
      | none => .error .outside
      | some v => .ok ⟨combsOf name channels sub, v.tail⟩

end Verif.Start
