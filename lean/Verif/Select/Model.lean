import Verif.Config.Model
import Verif.Text.Model
/-!
# Which spectra are computed, and which operators are carried along

Model of the class `Oprecalc` (`c++/oprecalc.hpp`): reading of the lists of
requested spectra, choice of the algorithms, set of the operators that have to
be recalculated, and the recalculation of all the operators in every step of a
sweep together with the quantities that are evaluated from them.
-/

namespace Verif.Select

open Verif.Text Verif.Config

/-- The sets of operators of class `Operators` (`c++/operators.hpp:203-209`),
with the type strings of `c++/oprecalc.hpp:87-100`. -/
inductive Kind
  | s | p | g | d | t | ot | q
  deriving DecidableEq

/-- The prefixes of spectra (`c++/oprecalc.hpp:187-221`). -/
inductive Pre
  | corr | chit | spin | orbspin | spec | gt | i1t | i2t | specq
  deriving DecidableEq

/-- The prefix strings (`c++/oprecalc.hpp:187-221`). -/
def Pre.text : Pre → Str
  | .corr => "corr".toList
  | .chit => "chit".toList
  | .spin => "spin".toList
  | .orbspin => "orbspin".toList
  | .spec => "spec".toList
  | .gt => "gt".toList
  | .i1t => "i1t".toList
  | .i2t => "i2t".toList
  | .specq => "specq".toList

/-- The algorithms: those of spectral functions (`Config.Algo`), `Algo_GT<S,n>` and
`Algo_CHIT` (`c++/oprecalc.hpp:125-162`). -/
inductive Meth
  | freq (a : Config.Algo)
  | GT | I1T | I2T | CHIT
  deriving DecidableEq

/-- The static members `algoname` (`c++/algo_FT.hpp:18,53,114,157`, `c++/algo_DMNRG.hpp:20,74`,
`c++/algo_CFS.hpp:16,68,120`, `c++/algo_FDM.hpp:19,68,117,190`). -/
def Meth.text : Meth → Str
  | .freq .FT => "FT".toList
  | .freq .FTmats => "FTmats".toList
  | .freq .DMNRG => "DMNRG".toList
  | .freq .DMNRGmats => "DMNRGmats".toList
  | .freq .CFS => "CFS".toList
  | .freq .CFSgt => "CFSgt".toList
  | .freq .CFSls => "CFSls".toList
  | .freq .FDM => "FDM".toList
  | .freq .FDMgt => "FDMgt".toList
  | .freq .FDMls => "FDMls".toList
  | .freq .FDMmats => "FDMmats".toList
  | .GT => "GT".toList
  | .I1T => "I1T".toList
  | .I2T => "I2T".toList
  | .CHIT => "CHIT".toList

/-- The settings used: the lists of spectra, the switches, `Sym->isfield()` and
`fdmexpvn` (`c++/params.hpp`). -/
structure Cfg where
  specs : Str
  specchit : Str
  spect : Str
  specot : Str
  specd : Str
  specgt : Str
  speci1t : Str
  speci2t : Str
  specq : Str
  sw : Sw
  isfield : Bool
  fdmexpvn : Nat

/-- A `BaseSpectrum` (`c++/algo.hpp:41-54`). The references `op1`, `op2` to entries of
the maps of operators are represented by the kind and the name of the entry. -/
structure Entry where
  pre : Pre
  meth : Meth
  k1 : Kind
  n1 : Str
  k2 : Kind
  n2 : Str
  spin : Int
  name : Str
  bosonic : Bool
  deriving DecidableEq

/-- The set of names in `string_token` (`c++/misc.hpp:134-142`): extraction of strings
separated by white space. The set is represented by a list. -/
def tokensAux (cur : Str) : Str → List Str
  | [] => if cur = [] then [] else [cur]
  | c :: s =>
    if isSpace c then (if cur = [] then tokensAux [] s else cur :: tokensAux [] s)
    else tokensAux (cur ++ [c]) s

/-- `string_token` (`c++/misc.hpp:134-142`). -/
def tokens (s : Str) : List Str := tokensAux [] s

/-- The algorithms set up by `prepare_spec` (`c++/oprecalc.hpp:125-162`), in order. -/
def methods (run : Run) (sw : Sw) (pre : Pre) : List Meth :=
  match pre with
  | .gt => if run = .nrg then [.GT] else []
  | .i1t => if run = .nrg then [.I1T] else []
  | .i2t => if run = .nrg then [.I2T] else []
  | .chit => if run = .nrg then [.CHIT] else []
  | _ =>
    match run with
    | .nrg =>
      (if sw.finite then [.freq .FT] else []) ++ (if sw.finitemats then [.freq .FTmats] else [])
    | .dmnrg =>
      (if sw.dmnrg then [.freq .DMNRG] else []) ++ (if sw.dmnrgmats then [.freq .DMNRGmats] else []) ++
      (if sw.cfs then [.freq .CFS] else []) ++ (if sw.cfsgt then [.freq .CFSgt] else []) ++
      (if sw.cfsls then [.freq .CFSls] else []) ++ (if sw.fdm then [.freq .FDM] else []) ++
      (if sw.fdmgt then [.freq .FDMgt] else []) ++ (if sw.fdmls then [.freq .FDMls] else []) ++
      (if sw.fdmmats then [.freq .FDMmats] else [])

/-- Name of a spectrum (`c++/oprecalc.hpp:170`). -/
def specName (n1 n2 : Str) (spin : Int) : Str :=
  n1 ++ '-' :: n2 ++ (if spin = 0 then [] else if spin = 1 then ['-', 'u'] else ['-', 'd'])

/-- The lists built by the constructor: `sl` and `ops`
(`c++/oprecalc.hpp:45,56`). The set `ops` is represented by a list. -/
structure St where
  sl : List Entry
  ops : List (Kind × Str)

/-- The body of `loopover` for one pair of operators (`c++/oprecalc.hpp:170-175`). -/
def onePair (run : Run) (sw : Sw) (toks : List Str) (pre : Pre) (k1 k2 : Kind) (bosonic : Bool) (spin : Int)
    (n1 n2 : Str) (st : St) : St :=
  let name := specName n1 n2 spin
  if name ∈ toks then
    let ms := methods run sw pre
    let st := { st with sl := st.sl ++ ms.map fun m => ⟨pre, m, k1, n1, k2, n2, spin, name, bosonic⟩ }
    if ms = [] then st else { st with ops := st.ops ++ [(k1, n1), (k2, n2)] }
  else st

/-- `loopover` (`c++/oprecalc.hpp:164-179`). -/
def loopover (run : Run) (sw : Sw) (names : Kind → List Str) (toks : List Str) (pre : Pre) (k1 k2 : Kind)
    (bosonic : Bool) (spin : Int) (st : St) : St :=
  (names k1).foldl (fun st n1 => (names k2).foldl (fun st n2 =>
    onePair run sw toks pre k1 k2 bosonic spin n1 n2 st) st) st

/-- The values of `SPIN` (`c++/oprecalc.hpp:203-207`): `varmin`, `varmin+2`, … up to `varmax`. -/
def spins (isfield : Bool) : List Int := if isfield then [-1, 1] else [0]

/-- The constructor of `Oprecalc` (`c++/oprecalc.hpp:182-222`). `names k` are the keys of
the map of operators of kind `k`, in order. The factor and check functions of a spectrum
are determined by the prefix and are not listed. -/
def create (run : Run) (cfg : Cfg) (names : Kind → List Str) : St :=
  let lo := loopover run cfg.sw names
  let over (spins : List Int) (f : Int → St → St) (st : St) := spins.foldl (fun st sp => f sp st) st
  let st : St := ⟨[], []⟩
  let sts := tokens cfg.specs
  let st := lo sts .corr .s .s true 0 st
  let st := lo sts .corr .p .p true 0 st
  let st := lo sts .corr .g .g true 0 st
  let st := lo sts .corr .s .g true 0 st
  let st := lo sts .corr .g .s true 0 st
  let stchit := tokens cfg.specchit
  let st := lo stchit .chit .s .s true 0 st
  let st := lo stchit .chit .s .g true 0 st
  let st := lo stchit .chit .g .s true 0 st
  let st := lo stchit .chit .g .g true 0 st
  let st := lo (tokens cfg.spect) .spin .t .t true 0 st
  let st := lo (tokens cfg.specot) .orbspin .ot .ot true 0 st
  let st := over (spins cfg.isfield) (lo (tokens cfg.specd) .spec .d .d false) st
  let st := over (spins cfg.isfield) (lo (tokens cfg.specgt) .gt .d .d false) st
  let st := over (spins cfg.isfield) (lo (tokens cfg.speci1t) .i1t .d .d false) st
  let st := over (spins cfg.isfield) (lo (tokens cfg.speci2t) .i2t .d .d false) st
  lo (tokens cfg.specq) .specq .q .q false 0 st

/-- `spec_fn` (`c++/algo.hpp:75-78`). -/
def fileName (e : Entry) : Str :=
  e.pre.text ++ '_' :: e.meth.text ++ "_dens_".toList ++ e.name

/-! ## Recalculation -/

/-- `Ops::do_s` and `Ops::do_g` (`c++/oprecalc.hpp:34-44`), and `ops.count` for the other
kinds (`c++/oprecalc.hpp:88-100`). -/
def selected (run : Run) (cfg : Cfg) (ops : List (Kind × Str)) (N : Nat) (k : Kind) (n : Str) : Bool :=
  match k with
  | .s | .g =>
    if run = .nrg then true
    else if run = .dmnrg ∧ cfg.sw.fdmexpv ∧ N ≤ cfg.fdmexpvn then true
    else decide ((k, n) ∈ ops)
  | _ => decide ((k, n) ∈ ops)

/-- The operations on the matrices of one operator. `recalc N k n` is the recalculation in
step `N` with the function for kind `k` (`recalc_singlet`, …, for `g` followed by `recalc_global`;
`c++/oprecalc.hpp:60-66, 87-100`); `trim N` is `MatrixElements::trim` at the end of step `N`
(`c++/operators.hpp:46-52`, `c++/core.hpp:312`); `empty` is the default constructed
`MatrixElements` (`c++/oprecalc.hpp:70-71`). -/
structure Env (M : Type) where
  recalc : Nat → Kind → Str → M → M
  trim : Nat → M → M
  empty : M

/-- The operators: for every kind and name the matrices. Only the names in the maps are used. -/
abbrev Opers (M : Type) := Kind → Str → M

/-- `recalculate_operators` (`c++/oprecalc.hpp:75-101`). -/
def recalculate {M : Type} (run : Run) (cfg : Cfg) (ops : List (Kind × Str)) (env : Env M) (N : Nat)
    (a : Opers M) : Opers M := fun k n =>
  if selected run cfg ops N k n then env.recalc N k n (a k n) else env.empty

/-- What one step evaluates from the operators: the pairs of operators given to the algorithms of
all the spectra (`c++/measurements.hpp:220`, `c++/algo.hpp:57-74`), the operators used for
the expectation values `custom` (`c++/measurements.hpp:222-225`, `c++/measurements.hpp:18-31`) and for
`customfdm` (`c++/measurements.hpp:230-234, 33-44`): all those of kinds `s` and `g`. -/
structure Record (M : Type) where
  N : Nat
  spectra : List (Entry × M × M)
  custom : List (Kind × Str × M)
  customfdm : List (Kind × Str × M)

/-- The operators of which expectation values are evaluated (`c++/measurements.hpp:20-30, 35-43`). -/
def singlets {M : Type} (names : Kind → List Str) (a : Opers M) : List (Kind × Str × M) :=
  (names .s).map (fun n => (Kind.s, n, a .s n)) ++ (names .g).map (fun n => (Kind.g, n, a .g n))

/-- `calculate_spectral_and_expv_impl` (`c++/measurements.hpp:200-235`), as far as the
operators are concerned. -/
def evaluate {M : Type} (run : Run) (cfg : Cfg) (names : Kind → List Str) (st : St) (N : Nat) (a : Opers M) : Record M where
  N := N
  spectra := st.sl.map fun e => (e, a e.k1 e.n1, a e.k2 e.n2)
  custom := if run = .nrg then singlets names a else []
  customfdm := if run = .dmnrg ∧ cfg.sw.fdmexpv ∧ N = cfg.fdmexpvn then singlets names a else []

/-- The steps `N, N+1, …` of a sweep (`c++/core.hpp:266-271, 273-315, 332-338`):
recalculation, evaluation, trimming. The recalculation is done before or after the
truncation, once per step in either case. -/
def sweep {M : Type} (run : Run) (cfg : Cfg) (names : Kind → List Str) (st : St) (env : Env M) :
    Nat → Nat → Opers M → List (Record M)
  | 0, _, _ => []
  | len + 1, N, a =>
    let a := recalculate run cfg st.ops env N a
    evaluate run cfg names st N a :: sweep run cfg names st env len (N + 1) fun k n => env.trim N (a k n)

/-- One sweep over the steps `Ninit ≤ N < Nlen`, with the operators of the data file
(`c++/nrg-general.hpp:155-172`: each sweep starts from its own copy of them). The evaluation
before the first step (`calc0`), which uses the operators of the data file as they are, is not included. -/
def runSweep {M : Type} (run : Run) (cfg : Cfg) (names : Kind → List Str) (env : Env M) (Ninit Nlen : Nat)
    (a : Opers M) : List (Record M) :=
  sweep run cfg names (create run cfg names) env (Nlen - Ninit) Ninit a

end Verif.Select
