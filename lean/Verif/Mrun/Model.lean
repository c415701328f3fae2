import Verif.Cmd.Model
import Verif.Calc.Model
import Verif.Table.Model
/-!
# The program `matrix` from the command line and files to what it writes

Numbers are exact; how a number is printed is a parameter. Messages on the terminal are not modelled. Programs spread over several files are an outcome of their own.
-/

namespace Verif.Mrun
open Verif.Text
open Verif.DataFile (Dec readDec)
open Verif.Table (Dec.value)
open Verif.Calc (Env Ev Outcome calculator)
open Verif.Cmd (CalcSet)

/-- The text files. -/
abbrev Files := Str → Option Str

/-- How the program ends before anything is computed: the command line, a negative number of channels (`std::length_error`, `parser.yy:378-383`), a file that cannot be
opened (`exit(1)`, `parser.yy:257-261, 282-286, 312-316, 361-365`), a hybridisation strength below zero (`assert`, `parser.yy:292`); `several` is not modelled. -/
inductive Fail
  | stop (s : Cmd.Stop)
  | channels
  | nofile (name : Str)
  | negative (name : Str)
  | several
  deriving DecidableEq

/-- A single number (`tools/matrix/parser.yy:287, 317`): what cannot be read counts as zero. -/
def number (s : Str) : Dec :=
  match readDec s with
  | some (d, _) => d
  | none => ⟨0, 0⟩

/-- The loop of `load_vector` (`tools/matrix/parser.yy:262-271`). -/
def numLoop : Nat → Str → List Dec
  | 0, _ => []
  | n + 1, s =>
    match readDec s with
    | none => []
    | some (d, r) => d :: numLoop n r

/-- `load_vector` (`tools/matrix/parser.yy:255-273`) on the text of a file. -/
def numbers (s : Str) : List Dec := numLoop (s.length + 1) s

/-- Names of files (`tools/matrix/parser.yy:280-281, 294, 296, 306, 311, 325-331`). -/
def nameOf (base : Str) (numbered : Bool) (ch : Nat) : Str := base ++ ((if numbered then natStr ch else []) ++ ['.', 'd', 'a', 't'])

/-- Opening a file and reading from it. -/
def single (fs : Files) (name : Str) : Except Fail Dec :=
  match fs name with
  | none => .error (.nofile name)
  | some s => .ok (number s)

/-- `load_vector` (`tools/matrix/parser.yy:255-273`). -/
def table (fs : Files) (name : Str) : Except Fail (List Dec) :=
  match fs name with
  | none => .error (.nofile name)
  | some s => .ok (numbers s)

/-- What is known about a channel (`tools/matrix/parser.yy:248-253`). -/
structure Channel where
  theta : Dec
  xi : List Dec
  zeta : List Dec
  delta : List Dec
  kappa : List Dec
  v : List (List Dec)
  deriving DecidableEq

/-- A pass through the loop of `load_discretization` (`tools/matrix/parser.yy:277-298`). -/
def normal (fs : Files) (numbered : Bool) (ch : Nat) : Except Fail Channel := do
  let d ← single fs (nameOf ['t', 'h', 'e', 't', 'a'] numbered ch)
  if Dec.value d < 0 then .error (.negative (nameOf ['t', 'h', 'e', 't', 'a'] numbered ch))
  else
    let x ← table fs (nameOf ['x', 'i'] numbered ch)
    let z ← table fs (nameOf ['z', 'e', 't', 'a'] numbered ch)
    pure ⟨d, x, z, [], [], []⟩

/-- A pass through the loop of `load_discretization_sc` (`tools/matrix/parser.yy:303-333`). -/
def nambu (fs : Files) (numbered : Bool) (ch : Nat) : Except Fail Channel := do
  let a ← single fs (nameOf ['V', '1', '1'] numbered ch)
  let b ← single fs (nameOf ['V', '1', '2'] numbered ch)
  let c ← single fs (nameOf ['V', '2', '1'] numbered ch)
  let d ← single fs (nameOf ['V', '2', '2'] numbered ch)
  let x ← table fs (nameOf ['x', 'i'] numbered ch)
  let z ← table fs (nameOf ['z', 'e', 't', 'a'] numbered ch)
  let p ← table fs (nameOf ['s', 'c', 'd', 'e', 'l', 't', 'a'] numbered ch)
  let q ← table fs (nameOf ['s', 'c', 'k', 'a', 'p', 'p', 'a'] numbered ch)
  pure ⟨⟨0, 0⟩, x, z, p, q, [[a, b], [c, d]]⟩

/-- The loop over the channels. -/
def each (f : Nat → Except Fail Channel) : List Nat → Except Fail (List Channel)
  | [] => .ok []
  | n :: l =>
    match f n with
    | .error e => .error e
    | .ok a =>
      match each f l with
      | .error e => .error e
      | .ok as => .ok (a :: as)

/-- The coefficients (`tools/matrix/parser.yy:378-389`): names carry the number of the channel exactly if the number of channels is given. -/
def channels (fs : Files) (o : CalcSet) : Except Fail (List Channel) :=
  if o.channels.getD 1 < 0 then .error .channels
  else each ((if o.sc then nambu else normal) fs o.channels.isSome) ((List.range (o.channels.getD 1).toNat).map (· + 1))

variable {K : Type} [Field K] [DecidableEq K]

/-- The calculator with these coefficients (`tools/matrix/parser.yy:492-536`). `coefV` uses the first channel; without channels it would be undefined behaviour, here
there are no entries. -/
def withChannels (B : Env K) (cs : List Channel) : Env K :=
  { B with
    theta := cs.map fun c => B.val c.theta
    xi := cs.map fun c => c.xi.map B.val
    zeta := cs.map fun c => c.zeta.map B.val
    delta := cs.map fun c => c.delta.map B.val
    kappa := cs.map fun c => c.kappa.map B.val
    v := ((cs.head?.map Channel.v).getD []).map fun r => r.map B.val }

/-- The text of the program (`tools/matrix/parser.yy:344-369, 396-404`). -/
def source (fs : Files) (stdin : Str) : List Str → Except Fail Str
  | [] => .ok stdin
  | [n] =>
    match fs n with
    | none => .error (.nofile n)
    | some s => .ok s
  | _ => .error .several

/-- `main` (`tools/matrix/parser.yy:372-413`). -/
def matrix (B : Env K) (fs : Files) (stdin : Str) (argv : List Str) : Except Fail (CalcSet × Outcome K) :=
  match Cmd.matrix.main argv with
  | .error e => .error (.stop e)
  | .ok (o, ops) =>
    match channels fs o with
    | .error e => .error e
    | .ok cs =>
      match source fs stdin ops with
      | .error e => .error e
      | .ok t => .ok (o, calculator (withChannels B cs) t)

/-- `prefix` (`tools/matrix/parser.yy:234-240`). -/
def prefixOf (o : CalcSet) : Str := if o.prefixed then ['=', ' '] else []

/-- `dump_vector` (`tools/matrix/parser.yy:415-424`). -/
def vecText (pr : K → Str) : List K → Str
  | [] => ['\n']
  | [x] => pr x ++ ['\n']
  | x :: y :: l => pr x ++ ' ' :: vecText pr (y :: l)

/-- `dump_matrix` (`tools/matrix/parser.yy:426-437`). -/
def matText (pr : K → Str) (pre : Str) : List (List K) → Str
  | [] => []
  | [r] => vecText pr r
  | r :: r' :: m => vecText pr r ++ (pre ++ matText pr pre (r' :: m))

/-- What is written on standard output (`tools/matrix/parser.yy:91-93`); messages go elsewhere. -/
def evText (pr : K → Str) (pre : Str) : Ev K → Str
  | .num x => pre ++ (pr x ++ ['\n'])
  | .vec l => pre ++ vecText pr l
  | .mat m => pre ++ matText pr pre m
  | .divZero => []
  | .notFunction _ => []

/-- Standard output. What is written before an error in the scanner is not modelled. -/
def output (pr : K → Str) (r : CalcSet × Outcome K) : Option Str :=
  match r.2 with
  | .parser _ out => some (out.flatMap (evText pr (prefixOf r.1)))
  | _ => none

end Verif.Mrun
