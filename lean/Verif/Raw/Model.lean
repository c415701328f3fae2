import Verif.Text.Model
/-!
# The files `raw.h5` and `raw-dm.h5`

Model of what a run stores in HDF5 files: the names of all data sets in the order in which they are written, and the file with its groups. The contents of the data
sets are opaque. Of the library `H5Easy` only the following is used: `dump` creates the groups that are missing and the data set; it throws an exception if
there is already something with this name, or if something on the way is not a group.
-/

namespace Verif.Raw
open Verif.Text
open Verif.Invar (Label)

/-! ## Files -/

/-- The components of a name: empty ones do not count. -/
def comps (p : Str) : List Str := (split '/' p).filter fun c => c ≠ []

/-- A file: its data sets. -/
abbrev File (V : Type) := List (List Str × V)

/-- `H5Easy::dump` (`c++/h5.hpp:19-36`). -/
def dump {V : Type} (f : File V) (p : Str) (v : V) : Option (File V) :=
  if comps p = [] ∨ ∃ e ∈ f, e.1 <+: comps p ∨ comps p <+: e.1 then none else some (f ++ [(comps p, v)])

/-- A sequence of writes; it ends with the first exception. -/
def dumpAll {V : Type} : File V → List (Str × V) → Option (File V)
  | f, [] => some f
  | f, (p, v) :: ws =>
    match dump f p v with
    | none => none
    | some f => dumpAll f ws

/-- What a reader finds under a name. -/
def get {V : Type} (f : File V) (p : Str) : Option V := (f.find? fun e => e.1 = comps p).map Prod.snd

/-! ## Names -/

/-- The tables of operators (`c++/operators.hpp:233-241`). -/
inductive Cat
  | s | sp | sg | d | t | q | ot
  deriving DecidableEq

def Cat.all : List Cat := [.s, .sp, .sg, .d, .t, .q, .ot]

def Cat.str : Cat → Str
  | .s => ['s']
  | .sp => ['s', 'p']
  | .sg => ['s', 'g']
  | .d => ['d']
  | .t => ['t']
  | .q => ['q']
  | .ot => ['o', 't']

/-- What is stored for a subspace (`c++/eigen.hpp:157-165, 204-206, 431-435`). -/
inductive Leaf
  | orig | zero | absZero | abs | absG | corr | crit | matrix | matrixImag | nrkept
  deriving DecidableEq

def Leaf.all : List Leaf := [.orig, .zero, .absZero, .abs, .absG, .corr, .crit, .matrix, .matrixImag, .nrkept]

def matrixStr : Str := ['m', 'a', 't', 'r', 'i', 'x']
def imagStr : Str := ['-', 'i', 'm', 'a', 'g']

def Leaf.str : Leaf → Str
  | .orig => ['v', 'a', 'l', 'u', 'e', '_', 'o', 'r', 'i', 'g']
  | .zero => ['v', 'a', 'l', 'u', 'e', '_', 'z', 'e', 'r', 'o']
  | .absZero => ['a', 'b', 's', 'e', 'n', 'e', 'r', 'g', 'y', '_', 'z', 'e', 'r', 'o']
  | .abs => ['a', 'b', 's', 'e', 'n', 'e', 'r', 'g', 'y']
  | .absG => ['a', 'b', 's', 'e', 'n', 'e', 'r', 'g', 'y', 'G']
  | .corr => ['v', 'a', 'l', 'u', 'e', '_', 'c', 'o', 'r', 'r']
  | .crit => ['c', 'r', 'i', 't']
  | .matrix => matrixStr
  | .matrixImag => matrixStr ++ imagStr
  | .nrkept => ['n', 'r', 'k', 'e', 'p', 't']

/-- `c++/stats.hpp:83-88`. -/
inductive Stat
  | energyscale | scale | Teff | relEgs | absEgs | offset
  deriving DecidableEq

def Stat.all : List Stat := [.energyscale, .scale, .Teff, .relEgs, .absEgs, .offset]

def Stat.str : Stat → Str
  | .energyscale => ['e', 'n', 'e', 'r', 'g', 'y', 's', 'c', 'a', 'l', 'e']
  | .scale => ['s', 'c', 'a', 'l', 'e']
  | .Teff => ['T', 'e', 'f', 'f']
  | .relEgs => ['r', 'e', 'l', '_', 'E', 'g', 's']
  | .absEgs => ['a', 'b', 's', '_', 'E', 'g', 's']
  | .offset => ['e', 'n', 'e', 'r', 'g', 'y', '_', 'o', 'f', 'f', 's', 'e', 't']

/-- `c++/store.hpp:28-33`. -/
inductive Sub
  | kept | total | min | max
  deriving DecidableEq

def Sub.all : List Sub := [.kept, .total, .min, .max]

def Sub.str : Sub → Str
  | .kept => ['k', 'e', 'p', 't']
  | .total => ['t', 'o', 't', 'a', 'l']
  | .min => ['m', 'i', 'n']
  | .max => ['m', 'a', 'x']

/-- `c++/stats.hpp:98-102`. -/
inductive Fdm
  | Z | F | E | C | S
  deriving DecidableEq

def Fdm.all : List Fdm := [.Z, .F, .E, .C, .S]

def Fdm.str : Fdm → Str
  | .Z => ['Z']
  | .F => ['F']
  | .E => ['E']
  | .C => ['C']
  | .S => ['S']

/-- The data sets. -/
inductive Addr
  | param (k : Str)
  | eigen (n : Nat) (I : Label) (l : Leaf)
  | block (n : Nat) (I : Label) (k : Nat) (A : Label) (im : Bool)
  | ham (n : Nat) (I : Label) (im : Bool)
  | struct (n : Nat) (I : Label)
  | op (n : Nat) (c : Cat) (o : Str) (I J : Label) (im : Bool)
  | gs
  | stat (n : Nat) (l : Stat)
  | expv (o : Str)
  | total
  | range
  | list (n : Nat) (I : Label)
  | data (n : Nat) (I : Label) (l : Sub)
  | fdm (l : Fdm)
  | fdmExpv (o : Str)
  deriving DecidableEq

/-- The second data set of a complex matrix (`c++/h5.hpp:39-44`). -/
def imag (im : Bool) : Str := if im then imagStr else []

def kEigen : Str := ['e', 'i', 'g', 'e', 'n']
def kHam : Str := ['h', 'a', 'm', 'i', 'l', 't', 'o', 'n', 'i', 'a', 'n']
def kStruct : Str := ['s', 't', 'r', 'u', 'c', 't', 'u', 'r', 'e']
def kAnc : Str := ['a', 'n', 'c', 'e', 's', 't', 'o', 'r', 's']
def kParams : Str := ['p', 'a', 'r', 'a', 'm', 's']
def kStats : Str := ['s', 't', 'a', 't', 's']
def kGs : Str := ['G', 'S', '_', 'e', 'n', 'e', 'r', 'g', 'y']
def kExpv : Str := ['e', 'x', 'p', 'v']
def kTotal : Str := ['t', 'o', 't', 'a', 'l', '_', 'e', 'n', 'e', 'r', 'g', 'y']
def kStore : Str := ['s', 't', 'o', 'r', 'e']
def kRange : Str := ['r', 'a', 'n', 'g', 'e']
def kList : Str := ['l', 'i', 's', 't']
def kData : Str := ['d', 'a', 't', 'a']
def kFdm : Str := ['f', 'd', 'm']
def kNr : Str := ['|', 'n', 'r', '=']

/-- The names as they are put together: `c++/params.hpp:80, 655`; `c++/core.hpp:247` and `c++/nrg-general.hpp:163` with `c++/eigen.hpp:622`; `c++/core.hpp:249`
with `c++/recalc.hpp:60, 66`; `c++/core.hpp:100`; `c++/core.hpp:309` with `c++/subspaces.hpp:75, 106`; `c++/core.hpp:299` with `c++/operators.hpp:79, 153, 234-240`;
`c++/stats.hpp:79-92`; `c++/store.hpp:47-49, 88-90`; `c++/stats.hpp:98-105`. -/
def path : Addr → Str
  | .param k => kParams ++ '/' :: k
  | .eigen n I l => natStr n ++ '/' :: (kEigen ++ '/' :: '/' :: (name I ++ '/' :: l.str))
  | .block n I k A im => natStr n ++ '/' :: ('U' :: '/' :: (name I ++ '/' :: (name A ++ (kNr ++ (natStr k ++ imag im)))))
  | .ham n I im => natStr n ++ '/' :: (kHam ++ '/' :: (name I ++ '/' :: (matrixStr ++ imag im)))
  | .struct n I => natStr n ++ '/' :: (kStruct ++ '/' :: (name I ++ '/' :: kAnc))
  | .op n c o I J im => natStr n ++ '/' :: (c.str ++ '/' :: (o ++ '/' :: (name I ++ '/' :: (name J ++ '/' :: (matrixStr ++ imag im)))))
  | .gs => kStats ++ '/' :: kGs
  | .stat n l => kStats ++ '/' :: (natStr n ++ '/' :: l.str)
  | .expv o => kExpv ++ '/' :: o
  | .total => kTotal
  | .range => kStore ++ '/' :: kRange
  | .list n I => kStore ++ '/' :: (natStr n ++ '/' :: (kList ++ '/' :: name I))
  | .data n I l => kStore ++ '/' :: (natStr n ++ '/' :: (kData ++ '/' :: (name I ++ '/' :: l.str)))
  | .fdm l => kFdm ++ '/' :: l.str
  | .fdmExpv o => kFdm ++ '/' :: (kExpv ++ '/' :: o)

/-! ## A run -/

variable {V : Type}

abbrev Writes (V : Type) := List (Addr × V)

/-- A matrix: its real part, and its imaginary part if it is complex. -/
abbrev Mat (V : Type) := V × Option V

/-- `h5_dump_matrix` (`c++/h5.hpp:33-44`). -/
def matrix (a : Bool → Addr) (m : Mat V) : Writes V := (a false, m.1) :: m.2.toList.map fun v => (a true, v)

/-- The operators: the table, the name, the two subspaces. -/
abbrev Ops (V : Type) := Cat → List (Str × List ((Label × Label) × Mat V))

/-- The subspaces with what is present of their data. -/
abbrev Diag (V : Type) := List (Label × (Leaf → Option V))

/-- One step: the subspaces with the names of their ancestors; the rounds of the diagonalisation with the matrices of each, in the order in which the threads
write them; the results; the blocks; and the operators. -/
structure StepData (V : Type) where
  struct : List (Label × V)
  rounds : List (List (Label × Mat V))
  diag : Diag V
  blocks : List (Label × List (Label × Mat V))
  ops : Ops V

/-- The switches (`c++/params.hpp:527-534`). -/
structure Switches where
  all : Bool
  last : Bool
  ham : Bool
  ops : Bool
  vectors : Bool
  U : Bool
  struct : Bool

/-- `DiagInfo::h5save` (`c++/eigen.hpp:621-623`). -/
def diagWrites (n : Nat) (vectors : Bool) (d : Diag V) : Writes V :=
  d.flatMap fun e => (if vectors then Leaf.all else Leaf.all.filter fun l => l ≠ .matrix ∧ l ≠ .matrixImag).filterMap fun l => (e.2 l).map fun v => (.eigen n e.1 l, v)

/-- `h5save_blocks_Eigen` (`c++/recalc.hpp:54-61`): the blocks from the number `k` on. -/
def blockWrites (n : Nat) (I : Label) : Nat → List (Label × Mat V) → Writes V
  | _, [] => []
  | k, b :: bs => matrix (.block n I k b.1) b.2 ++ blockWrites n I (k + 1) bs

/-- `Operators::h5save` (`c++/operators.hpp:233-241`). -/
def opWrites (n : Nat) (ops : Ops V) : Writes V :=
  Cat.all.flatMap fun c => (ops c).flatMap fun o => o.2.flatMap fun m => matrix (.op n c o.1 m.1.1 m.1.2) m.2

/-- The matrices of the Hamiltonian in one round (`c++/core.hpp:96-101`). -/
def hamWrites (n : Nat) (r : List (Label × Mat V)) : Writes V := r.flatMap fun m => matrix (.ham n m.1) m.2

/-- Is this step stored (`c++/core.hpp:96, 246, 298, 308`)? -/
def Switches.here (h : Switches) (last : Bool) : Bool := h.all || (h.last && last)

/-- One step (`c++/core.hpp:304-318`), with the number `n = ndx + 1`. -/
def stepWrites (h : Switches) (nrg : Bool) (last : Bool) (n : Nat) (s : StepData V) : Writes V :=
  if h.here last then
    (if h.struct then s.struct.map fun e => (.struct n e.1, e.2) else []) ++
      ((if h.ham && nrg then s.rounds.flatMap (hamWrites n) else []) ++
        ((if nrg then diagWrites n h.vectors s.diag ++ (if h.U then s.blocks.flatMap fun b => blockWrites n b.1 0 b.2 else []) else []) ++
          (if h.ops then opWrites n s.ops else [])))
  else []

/-- `nrg_loop` (`c++/core.hpp:335-342`). -/
def stepsWrites (h : Switches) (nrg : Bool) : Nat → List (StepData V) → Writes V
  | _, [] => []
  | n, s :: r => stepWrites h nrg r.isEmpty n s ++ stepsWrites h nrg (n + 1) r

/-- `c++/stats.hpp:80-89`. -/
def statsWrites : Nat → List (Stat → V) → Writes V
  | _, [] => []
  | n, s :: r => (Stat.all.map fun l => (.stat n l, s l)) ++ statsWrites (n + 1) r

/-- `ThermoSubs::h5save` (`c++/store.hpp:44-50`); `one` is the list with the number 1. -/
def subsWrites (n : Nat) (one : V) (s : List (Label × (Sub → V))) : Writes V :=
  (s.map fun e => (.list n e.1, one)) ++ s.flatMap fun e => Sub.all.map fun l => (.data n e.1 l, e.2 l)

/-- `c++/store.hpp:89-90`. -/
def storeWrites (one : V) : Nat → List (List (Label × (Sub → V))) → Writes V
  | _, [] => []
  | n, s :: r => subsWrites n one s ++ storeWrites one (n + 1) r

/-- What is stored at the end of the first run. -/
structure Final (V : Type) where
  gs : V
  stats : List (Stat → V)
  expv : List (Str × V)
  total : V
  range : V
  one : V
  store : List (List (Label × (Sub → V)))

/-- What is stored at the end of the second run with `fdm`; the expectation values with `fdmexpv`. -/
structure FinalDm (V : Type) where
  values : Fdm → V
  expv : List (Str × V)

/-- `Stats::h5save_nrg` (`c++/stats.hpp:78-93`) and `ThermoStore::h5save` (`c++/store.hpp:86-91`), as called in `c++/nrg-general.hpp:182-184`. -/
def finalWrites (h : Switches) (Ninit : Nat) (f : Final V) : Writes V :=
  (.gs, f.gs) :: (statsWrites (Ninit + 1) f.stats ++ ((f.expv.map fun e => (.expv e.1, e.2)) ++ ((.total, f.total) ::
    (if h.all then (.range, f.range) :: storeWrites f.one (Ninit + 1) f.store else []))))

/-- `Stats::h5save_dmnrg` (`c++/stats.hpp:96-107`). -/
def finalDmWrites (f : FinalDm V) : Writes V := (Fdm.all.map fun l => (.fdm l, f.values l)) ++ f.expv.map fun e => (.fdmExpv e.1, e.2)

/-- A run of the iteration, the first or the second; `params` are the parameters and the eight numbers derived from them (`c++/params.hpp:654-664`). -/
structure Run (V : Type) where
  switches : Switches
  Ninit : Nat
  params : List (Str × V)
  diag : Diag V
  ops : Ops V
  steps : List (StepData V)
  final : Final V ⊕ Option (FinalDm V)

def Run.nrg (r : Run V) : Bool := r.final.isLeft

/-- `run_phase` (`c++/nrg-general.hpp:155-192`) with `h5raw`, and the constructor of `Output` (`c++/output.hpp:157-161`). -/
def Run.writes (r : Run V) : Writes V :=
  (r.params.map fun e => (.param e.1, e.2)) ++
    ((if r.switches.all then diagWrites r.Ninit true r.diag ++ opWrites r.Ninit r.ops else []) ++
      (stepsWrites r.switches r.nrg (r.Ninit + 1) r.steps ++
        match r.final with
        | .inl f => finalWrites r.switches r.Ninit f
        | .inr none => []
        | .inr (some f) => finalDmWrites f))

/-- The file at the end; `none` is an exception. The file is empty at the beginning (`Overwrite`). -/
def Run.file (r : Run V) : Option (File V) := dumpAll [] (r.writes.map fun w => (path w.1, w.2))

end Verif.Raw
