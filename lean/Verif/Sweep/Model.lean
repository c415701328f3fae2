import Verif.Store.Model
import Verif.Trunc.Model
import Verif.Thermo.Model
import Verif.Symm.Model
import Verif.Subspaces.Model
/-!
# Both sweeps of a calculation (`c++/core.hpp`, `c++/nrg-general.hpp`)

The data that one step hands to the next, and the first sweep to the second
through the stored spectra: spectra with eigenvectors and counters, operators of
the chain, other operators, energies, the two stores and the files.

Exact arithmetic, and one type `K` of numbers for eigenvalues and eigenvectors.
The eigensolver, the recalculation of one operator and of the operators of the
chain, and the part of the Floquet preparation behind the splitting into blocks
are parameters (`Env`); they see only what they are given in the code.
Measurements read the data and do not change it: what they are given is recorded
(`Rec`).  Not modelled here: `P.project`, HDF5 output, log output, `assert`
(checked only in debugging builds), exceptions in measurements.
-/

namespace Verif.Sweep
open Verif.Invar Verif.Store Verif.Subspaces

/-- Ways in which a run can end early.  `undefined`: undefined behaviour. -/
inductive Err
  | assertFailed
  | undefined
  | exception
  | fuel
  deriving DecidableEq, Repr

/-- `RUNTYPE`, `c++/params.hpp:20`. -/
inductive Sweep
  | nrg
  | dm
  deriving DecidableEq, Repr

/-- `DiagInfo`, `c++/eigen.hpp:460-461`. -/
abbrev Diag (K : Type) := List (Label × Eig K)

/-- `SubspaceStructure`, `c++/subspaces.hpp:93-112`. -/
abbrev Struct := List (Label × Dims)

/-- What the recalculation of operators reads of a `DiagInfo`: the blocks of the
eigenvectors and the number of stored states (`c++/recalc.hpp`). -/
abbrev View (K : Type) := List (Label × (List (Mat K) × Nat))

/-- `RawEigen`, `c++/eigen.hpp:265-284`: what the eigensolver returns. -/
structure Raw (K : Type) where
  val : List K
  vec : Mat K

section
variable {K : Type}

/-- `getnrstored`, `c++/eigen.hpp:364`. -/
def nrstored (e : Eig K) : Nat := if e.nrstored = -1 then e.values.v.length else e.nrstored.toNat

/-- `getnrkept`, `getnrpost`, `c++/eigen.hpp:358,362`. -/
def nrkept (e : Eig K) : Nat := if e.nrpost = -1 then e.values.v.length else e.nrpost.toNat

/-- The sizes read by the constructor of `SubspaceStructure` through
`size_subspace`, `c++/eigen.hpp:533-538`. -/
def sizes (d : Diag K) : Symm.Sizes := d.map fun p => (p.1, nrstored p.2)

/-- The view of the recalculation routines. -/
def view (d : Diag K) : View K := d.map fun p => (p.1, (p.2.blocks, nrstored p.2))

/-- `Matrix(0, 0)`, `c++/eigen.hpp:193-195`. -/
def noMatrix : Mat K := ⟨0, 0, []⟩

/-- The constructor `Eigen(RawEigen &&, const Step &)`, `c++/eigen.hpp:337-342`,
with the default values of the members (`c++/eigen.hpp:73-79,355-357`). -/
def ofRaw (nan : K) (last : Bool) (r : Raw K) : Eig K :=
  { values := ⟨r.val, nan, nan, nan, nan, [], r.val, nan⟩
    m := r.vec, dim := r.vec.cols, blocks := [], nrpost := -1, nrstored := -1, last := last }

/-- `submatrix_const(m, {0, nr}, {a, b})`, `c++/numerics_Eigen.hpp:141-145`,
copied into a matrix.  Elements outside of the matrix must not be read; a block
without columns reads none. -/
def subBlock (m : Mat K) (nr a b : Nat) : Except Err (Mat K) :=
  if b ≤ a then .ok ⟨nr, 0, List.replicate nr []⟩
  else if nr ≤ m.rows ∧ b ≤ m.cols then
    .ok ⟨nr, b - a, (m.data.take nr).map fun r => (r.drop a).take (b - a)⟩
  else .error .undefined

/-- The loop over the blocks, `c++/recalc.hpp:24-30`. -/
def subBlocks (m : Mat K) (nr : Nat) (d : Dims) : Except Err (List (Mat K)) :=
  (List.range d.length).mapM fun i =>
    match part d i with
    | none => .error .assertFailed
    | some p => subBlock m nr p.1 p.2

/-- `split_in_blocks_Eigen`, `c++/recalc.hpp:18-34`. -/
def splitEig (d : Dims) (discard : Bool) (e : Eig K) : Except Err (Eig K) :=
  if 0 < nrstored e ∧ nrstored e ≤ e.dim then
    match subBlocks e.m (nrstored e) d with
    | .error x => .error x
    | .ok bs => .ok { e with blocks := bs, m := if discard then noMatrix else e.m }
  else .error .assertFailed

/-- `split_in_blocks`, `c++/recalc.hpp:36-40`; `substruct.at(I)` throws if the
subspace does not exist. -/
def splitOne (str : Struct) (discard : Bool) (p : Label × Eig K) : Except Err (Label × Eig K) :=
  match str.lookup p.1 with
  | none => .error .exception
  | some d =>
    match splitEig d discard p.2 with
    | .error x => .error x
    | .ok e => .ok (p.1, e)

def split (str : Struct) (discard : Bool) (d : Diag K) : Except Err (Diag K) := d.mapM (splitOne str discard)

/-- `Blocks::truncate`, `c++/eigen.hpp:244-249`, for one block. -/
def truncMat (nr : Nat) (m : Mat K) : Except Err (Mat K) :=
  if nr ≤ m.rows then .ok ⟨nr, m.cols, m.data.take nr⟩ else .error .undefined

/-- `Eigen::truncate_perform`, `c++/eigen.hpp:383-386`. -/
def truncOne (p : Label × Eig K) : Except Err (Label × Eig K) :=
  match p.2.blocks.mapM (truncMat p.2.nrpost.toNat) with
  | .error x => .error x
  | .ok bs => .ok (p.1, { p.2 with nrstored := p.2.nrpost, blocks := bs })

/-- `DiagInfo::truncate_perform`, `c++/eigen.hpp:530-532`. -/
def truncatePerform (d : Diag K) : Except Err (Diag K) := d.mapM truncOne

/-- `clear_eigenvectors`, `c++/eigen.hpp:415-418,549-551`. -/
def clear (d : Diag K) : Diag K :=
  d.map fun p => (p.1, { p.2 with m := noMatrix, blocks := p.2.blocks.map fun _ => noMatrix })

/-- `subtract_GS_energy`, `c++/eigen.hpp:398-400,496-498`. -/
def setGS (gs : K) (d : Diag K) : Diag K :=
  d.map fun p => (p.1, { p.2 with values := { p.2.values with absGS := gs } })

/-- `set_shift_Egs`, `c++/eigen.hpp:390-392,489-491`. -/
def setShift (egs : K) (d : Diag K) : Diag K :=
  d.map fun p => (p.1, { p.2 with values := { p.2.values with shift := egs } })

/-- The loop in `finalize_nrg_iteration_metadata`, `c++/core.hpp:229-237`. -/
def setMeta (scale total : K) (d : Diag K) : Diag K :=
  d.map fun p => (p.1, { p.2 with values := { p.2.values with scale := scale, tShift := total } })

/-- `Eigen::truncate_prepare` for every subspace, `c++/eigen.hpp:379-382`,
`c++/truncation.hpp:83-86`. -/
def setPost (ns : List Nat) (d : Diag K) : Diag K :=
  (d.zip ns).map fun p => (p.1.1, { p.1.2 with nrpost := (p.2 : Int) })

end

section
variable {K : Type} [Field K] [LinearOrder K]

/-- `find_Egs`, `c++/eigen.hpp:481-484`: the smallest of the first eigenvalues.
`front()` of an empty vector and the end iterator: undefined behaviour. -/
def findEgs (d : Diag K) : Except Err K :=
  match d.mapM fun p => p.2.values.v.head? with
  | none => .error .undefined
  | some ls =>
    match Thermo.minOf ls with
    | none => .error .undefined
    | some e => .ok e

/-- `initialize_diag_energy_reference`, `c++/core.hpp:120-127`.  Gives
`stats.Egs` and the spectra. -/
def reference (floquet : Bool) (d : Diag K) : Except Err (K × Diag K) :=
  if floquet then .ok (0, setShift 0 d)
  else
    match findEgs d with
    | .error x => .error x
    | .ok e => .ok (e, setShift e d)

/-- The assignments in `fix_it`, `c++/splitting.hpp:37-39`. -/
def setCorr (floquet : Bool) (p : (Label × Eig K) × List K) : Label × Eig K :=
  (p.1.1, { p.1.2 with values := { p.1.2.values with
    corrected := p.2, c := if floquet then p.1.2.values.c else p.2 } })

/-- `Clusters` with `fix_it`, `c++/splitting.hpp:31-64`: corrected eigenvalues
and, without Floquet, the truncation criterion. -/
def fixSplit (floquet : Bool) (eps : K) (d : Diag K) : Except Err (Diag K) :=
  match Trunc.fixSplittings eps (d.map fun p => p.2.values.v.map (· - p.2.values.shift)) with
  | none => .error .assertFailed
  | some cs => .ok ((d.zip cs).map (setCorr floquet))

/-- Errors of the truncation. -/
def truncErr : Trunc.Err → Err
  | .assertFailed => .assertFailed
  | .undefinedBehaviour => .undefined

/-- `truncate_prepare`, `c++/truncation.hpp:80-97`: the spectra with the numbers
of states to keep, and whether `NotEnough` was thrown. -/
def prepare (s : Trunc.Settings K) (lastAll : Bool) (d : Diag K) : Except Err (Diag K × Bool) :=
  match Trunc.truncatePrepare s lastAll (d.map fun p => ⟨p.2.values.c, p.2.dim⟩) with
  | .error e => .error (truncErr e)
  | .ok r => .ok (setPost r.nrkept d, r.notEnough)

/-- Parameters of a run.  `trunc N` are the settings of the truncation in step
`N`; `scale N` is `step.scale()`; `lastStored` has a value if the run resumes
(`P.resume && P.laststored.has_value()`). -/
structure Par (K : Type) where
  Ninit : Nat
  Nmax : Nat
  trunc : Nat → Trunc.Settings K
  keepLast : Bool
  fixeps : K
  floquet : Bool
  restart : Bool
  restartfactor : K
  diagratio : K
  scale : Nat → K
  kept : Bool
  cfsfdm : Bool
  dm : Bool
  removefiles : Bool
  lastStored : Option Nat
  nan : K

/-- Routines that are parameters of this model; `Ch` is the type of the
operators of the chain (`Opch`), `E` that of the matrix elements of one operator,
`Key` are type and name of an operator. -/
structure Env (K Ch E Key : Type) where
  sym : Symm.Symmetry
  /-- `eng->diagonalisations`, `c++/diag.hpp`: step, operators of the chain,
  previous spectra, fraction of the states. -/
  solve : Nat → Ch → Diag K → K → List (Label × Raw K)
  /-- What `prepare_floquet_for_truncation` does after the splitting,
  `c++/core.hpp:139-171`: new `stats.Egs` and spectra. -/
  floq : Nat → List (Key × E) → Diag K → Except Err (K × Diag K)
  /-- Operators selected for recalculation, `c++/oprecalc.hpp:32-42,86-99`. -/
  selected : Sweep → Nat → Key → Bool
  /-- The recalculation of one operator, `c++/oprecalc.hpp:62-69`. -/
  recalc : Nat → Struct → View K → Key → E → Except Err E
  /-- `MatrixElements<S>()`. -/
  empty : E
  /-- `recalc_irreducible`, `c++/oprecalc.hpp:210-230`. -/
  irreducible : Nat → Struct → View K → Ch → Except Err Ch
  /-- `MatrixElements::trim` for one operator, `c++/operators.hpp`: the sizes
  are the numbers of stored states. -/
  trim : Symm.Sizes → E → E

/-- The entry of a `ThermoStore`, `c++/eigen.hpp:438-457`, `c++/store.hpp:20-46`. -/
structure Stored (K : Type) where
  values : Values K
  kept : Nat
  dim : Nat
  last : Bool
  deriving DecidableEq

/-- The entry of a `BackiterStore`, `c++/store.hpp:88-110`. -/
structure Back where
  dims : Dims
  kept : Nat
  dim : Nat
  deriving DecidableEq

/-- What a step works with: the structure, the spectra before and after the
truncation, the operators given to the measurements with the spectra they belong
to, and the operators left for the next step. -/
structure Rec (K Ch E Key : Type) where
  N : Nat
  str : Struct
  all : Diag K
  cut : Diag K
  measured : List (Key × E)
  measuredDiag : Diag K
  chain : Ch
  ops : List (Key × E)

/-- The state of a calculation between steps. -/
structure St (K Ch E Key : Type) where
  diag : Diag K
  chain : Ch
  ops : List (Key × E)
  total : K
  gs : K
  files : Nat → Option (List (Tok K))
  store : Nat → Option (List (Label × Stored K))
  back : Nat → Option (List (Label × Back))
  log : List (Rec K Ch E Key)

variable {Ch E Key : Type}

/-- `P.resume && P.laststored.has_value() && step.ndx() <= P.laststored.value()`,
`c++/core.hpp:110,243`. -/
def resumed (P : Par K) (N : Nat) : Bool :=
  match P.lastStored with
  | none => false
  | some k => decide (N ≤ k)

/-- `DiagInfo::load`, `c++/eigen.hpp:601-623`: an exception if the file is absent
or ends early. -/
def loadFile (P : Par K) (files : Nat → Option (List (Tok K))) (N : Nat) : Except Err (Diag K) :=
  match files N with
  | none => .error .exception
  | some ts =>
    match loadDiag P.nan ts with
    | none => .error .exception
    | some r => .ok r.1

/-- `load_or_compute_diag`, `c++/core.hpp:104-118`. -/
def getDiag (V : Env K Ch E Key) (P : Par K) (sw : Sweep) (N : Nat) (s : St K Ch E Key) (ratio : K) :
    Except Err (Diag K) :=
  match sw with
  | .nrg =>
    if resumed P N then loadFile P s.files N
    else .ok ((V.solve N s.chain s.diag ratio).map fun p => (p.1, ofRaw P.nan (decide (N + 1 = P.Nmax)) p.2))
  | .dm =>
    match loadFile P s.files N with
    | .error x => .error x
    | .ok d => .ok (setGS s.gs d)

/-- The body of the `try` block in `do_diag`, `c++/core.hpp:187-193`: `stats.Egs`,
the spectra, and whether `NotEnough` was thrown. -/
def attempt (V : Env K Ch E Key) (P : Par K) (sw : Sweep) (N : Nat) (str : Struct) (s : St K Ch E Key)
    (ratio : K) : Except Err (K × Diag K × Bool) := do
  let d ← getDiag V P sw N s ratio
  let (egs, d) ← reference P.floquet d
  let d ← fixSplit P.floquet P.fixeps d
  let (egs, d) ← (if P.floquet then do
      let d ← split str false d
      V.floq N s.ops d
    else pure (egs, d))
  let (d, b) ← prepare (P.trunc N) (decide (N + 1 = P.Nmax) && P.keepLast) d
  pure (egs, d, b)

/-- `do_diag`, `c++/core.hpp:179-205`.  The loop is bounded by `fuel`; the run
with too little of it has no result. -/
def doDiag (V : Env K Ch E Key) (P : Par K) (sw : Sweep) (N : Nat) (str : Struct) (s : St K Ch E Key) :
    Nat → K → Except Err (K × Diag K)
  | 0, _ => .error .fuel
  | fuel + 1, ratio =>
    match attempt V P sw N str s ratio with
    | .error x => .error x
    | .ok (egs, d, b) =>
      if b && (decide (sw = .nrg) && P.restart) then doDiag V P sw N str s fuel (min (ratio * P.restartfactor) 1)
      else .ok (egs, d)

/-- `initial_diagratio_for_step`, `c++/core.hpp:175-177`. -/
def ratio0 (P : Par K) (N : Nat) : K := if decide (N + 1 = P.Nmax) && P.keepLast then 1 else P.diagratio

/-- `do_recalc_kept`, `c++/params.hpp:598-600`. -/
def recalcKept (P : Par K) (sw : Sweep) : Bool := P.kept && !(P.cfsfdm && decide (sw = .dm))

/-- `recalculate_operators`, `c++/oprecalc.hpp:76-100`, for one operator. -/
def recalcOne (V : Env K Ch E Key) (sw : Sweep) (N : Nat) (str : Struct) (w : View K) (p : Key × E) :
    Except Err (Key × E) :=
  if V.selected sw N p.1 then
    match V.recalc N str w p.1 p.2 with
    | .error x => .error x
    | .ok m => .ok (p.1, m)
  else .ok (p.1, V.empty)

def recalcOps (V : Env K Ch E Key) (sw : Sweep) (N : Nat) (str : Struct) (w : View K) (ops : List (Key × E)) :
    Except Err (List (Key × E)) := ops.mapM (recalcOne V sw N str w)

/-- `ThermoSubs`, `BackiterSubs`, `c++/core.hpp:252-263`, `c++/store.hpp:40-43,106-109`. -/
def thermoSubs (last : Bool) (d : Diag K) : List (Label × Stored K) :=
  d.map fun p => (p.1, ⟨p.2.values, nrkept p.2, p.2.dim, last⟩)
def backSubs (str : Struct) (d : Diag K) : List (Label × Back) :=
  d.map fun p => (p.1, ⟨(str.lookup p.1).getD [], nrkept p.2, p.2.dim⟩)

/-- Assignment to an element. -/
def upd {α : Type} (f : Nat → Option α) (N : Nat) (x : Option α) : Nat → Option α :=
  fun n => if n = N then x else f n

/-- The part of `after_diag` for the first sweep only, `c++/core.hpp:278-282`:
splitting into blocks, energies, file.  In the second sweep the file has been
removed by `load` if `P.removefiles` is set (`c++/core.hpp:114`,
`c++/eigen.hpp:619-621`). -/
def finish1 (P : Par K) (sw : Sweep) (N : Nat) (str : Struct) (s : St K Ch E Key) (egs : K) (d : Diag K) :
    Except Err (Diag K × K × (Nat → Option (List (Tok K)))) :=
  match sw with
  | .nrg =>
    match split str true d with
    | .error x => .error x
    | .ok d =>
      let total := s.total + egs * P.scale N
      let d := setMeta (P.scale N) total d
      .ok (d, total, if P.dm && !resumed P N then upd s.files N (some (saveDiag d)) else s.files)
  | .dm => .ok (d, s.total, if P.removefiles then upd s.files N none else s.files)

/-- The first of the two places where operators are recalculated,
`c++/core.hpp:284-286`. -/
def opsBefore (V : Env K Ch E Key) (P : Par K) (sw : Sweep) (N : Nat) (str : Struct) (d1 : Diag K)
    (ops : List (Key × E)) : Except Err (List (Key × E)) :=
  if recalcKept P sw then .ok ops else recalcOps V sw N str (view d1) ops

/-- The second one, after the truncation, `c++/core.hpp:297-299`. -/
def opsAfter (V : Env K Ch E Key) (P : Par K) (sw : Sweep) (N : Nat) (str : Struct) (d2 : Diag K)
    (ops : List (Key × E)) : Except Err (List (Key × E)) :=
  if recalcKept P sw then recalcOps V sw N str (view d2) ops else .ok ops

/-- The operators of the chain, `c++/core.hpp:290-295`. -/
def nextChain (V : Env K Ch E Key) (P : Par K) (N : Nat) (str : Struct) (d2 : Diag K) (c : Ch) : Except Err Ch :=
  if N + 1 = P.Nmax then .ok c else V.irreducible N str (view d2) c

/-- `iterate`, `c++/core.hpp:308-323`, with `after_diag`, `c++/core.hpp:273-305`. -/
def step (V : Env K Ch E Key) (P : Par K) (fuel : Nat) (sw : Sweep) (N : Nat) (s : St K Ch E Key) :
    Except Err (St K Ch E Key) :=
  match Symm.substruct V.sym (sizes s.diag) with
  | none => .error .exception
  | some str => do
    let (egs, d0) ← doDiag V P sw N str s fuel (ratio0 P N)
    let (d1, total, files) ← finish1 P sw N str s egs d0
    let ops1 ← opsBefore V P sw N str d1 s.ops
    let d2 ← truncatePerform d1
    let chain ← nextChain V P N str d2 s.chain
    let ops2 ← opsAfter V P sw N str d2 ops1
    let ops3 := ops2.map fun p => (p.1, V.trim (sizes d2) p.2)
    pure { diag := clear d2, chain := chain, ops := ops3, total := total, gs := s.gs, files := files
           store := upd s.store N (some (thermoSubs (decide (N + 1 = P.Nmax)) d2))
           back := upd s.back N (some (backSubs str d2))
           log := s.log ++ [⟨N, str, d1, d2, ops2, if recalcKept P sw then d2 else d1, chain, ops3⟩] }

/-- `nrg_loop`, `c++/core.hpp:333-340`: `n` steps from step `N`. -/
def loop (V : Env K Ch E Key) (P : Par K) (fuel : Nat) (sw : Sweep) : Nat → Nat → St K Ch E Key →
    Except Err (St K Ch E Key)
  | _, 0, s => .ok s
  | N, n + 1, s =>
    match step V P fuel sw N s with
    | .error x => .error x
    | .ok s' => loop V P fuel sw (N + 1) n s'

/-- The input of a calculation: spectra, operators and ground state energy read
from the file `data` (`c++/nrg-general.hpp:195-201`). -/
structure Seed (K Ch E Key : Type) where
  diag : Diag K
  chain : Ch
  ops : List (Key × E)
  E0 : K

/-- The state at the beginning, in a directory with the given files. -/
def start (i : Seed K Ch E Key) (files : Nat → Option (List (Tok K))) : St K Ch E Key :=
  ⟨i.diag, i.chain, i.ops, i.E0, i.E0, files, fun _ => none, fun _ => none, []⟩

/-- The first sweep, `c++/nrg-general.hpp:153-190` with `RUNTYPE::NRG`; at its end
`stats.GS_energy` is set and all stored spectra are referred to it
(`store.shift_abs_energies`, `c++/store.hpp:81-85`). -/
def first (V : Env K Ch E Key) (P : Par K) (fuel : Nat) (i : Seed K Ch E Key)
    (files : Nat → Option (List (Tok K))) : Except Err (St K Ch E Key) :=
  match loop V P fuel .nrg P.Ninit (P.Nmax - P.Ninit) (start i files) with
  | .error x => .error x
  | .ok s => .ok { s with
      gs := s.total
      store := fun n => (s.store n).map fun l => l.map fun p =>
        (p.1, { p.2 with values := { p.2.values with absGS := s.total } }) }

/-- The second sweep, `c++/nrg-general.hpp:149-151,153-190` with
`RUNTYPE::DMNRG`: operators and spectra are again those of the input. -/
def second (V : Env K Ch E Key) (P : Par K) (fuel : Nat) (i : Seed K Ch E Key) (s : St K Ch E Key) :
    Except Err (St K Ch E Key) :=
  loop V P fuel .dm P.Ninit (P.Nmax - P.Ninit) { s with diag := i.diag, chain := i.chain, ops := i.ops, log := [] }

end

end Verif.Sweep
