import Verif.Cmd.Model
import Verif.Tools.Spectra
import Verif.Tools.Avg
import Verif.Mats.Model
/-!
# The programs that average over several calculations

`binavg`, `specmoments`, `mats` and `intavg` from the command line and the files `1/name`, …, `Nz/name` to what they write. A binary file is the sequence of the numbers
of eight bytes in it and the count of the bytes behind the last of them. Arithmetic is exact. Messages on the terminal, and failures to open a file for writing, are not
modelled.
-/

namespace Verif.Zrun
open Verif.Text
open Verif.Table (Dec.value kkRead)

/-- A binary file: numbers, and bytes that are left (fewer than eight). -/
structure Bin (K : Type) where
  nums : List K
  extra : Nat
  deriving DecidableEq

/-- `end_pos - begin_pos` (`tools/binavg/binavg.hpp:101-105`). -/
def Bin.size {K : Type} (f : Bin K) : Nat := 8 * f.nums.length + f.extra

/-- How a program ends without result: the command line, a file that cannot be opened, a file without a whole number of rows, no weight at all
(`tools/specmoments/specmoments.cc:263-266`), fewer than two points in a table (`tools/intavg/intavg.cc:105-108`), `findindex` (`tools/intavg/intavg.cc:196-200`). -/
inductive Fail
  | stop (s : Cmd.Stop)
  | nofile (name : Str)
  | incomplete (name : Str)
  | noweight
  | short (name : Str)
  | search
  deriving DecidableEq

/-- The files. -/
abbrev Files (A : Type) := Str → Option A

/-- Writing replaces the contents. -/
def write {A : Type} (fs : Files A) (name : Str) (a : A) : Files A := fun n => if n = name then some a else fs n

/-- The name of the file number `i` (`tools/binavg/binavg.hpp:92`, `tools/specmoments/specmoments.cc:130-135`, `tools/mats/mats.cc:117-121`). -/
def place (one : Bool) (Nz : Int) (name : Str) (i : Nat) : Str := if one && decide (Nz = 1) then name else natStr i ++ '/' :: name

variable {K : Type} [Field K] [LinearOrder K]

/-- `load` (`tools/binavg/binavg.hpp:90-126`, `tools/specmoments/specmoments.cc:127-174`, `tools/mats/mats.cc:114-157`): the rows of a file, frequency and chosen column.
In `specmoments` the test of the length is an assertion. -/
def load (nrcol col : Nat) (fs : Files (Bin K)) (fn : Str) : Except Fail (List (K × K)) :=
  match fs fn with
  | none => .error (.nofile fn)
  | some f => if f.size % ((1 + nrcol) * 8) ≠ 0 then .error (.incomplete fn) else .ok (Tools.points nrcol col f.nums)

/-- A loop over files that ends with the first failure. -/
def each {A : Type} (f : Str → Except Fail A) : List Str → Except Fail (List A)
  | [] => .ok []
  | n :: l =>
    match f n with
    | .error e => .error e
    | .ok a =>
      match each f l with
      | .error e => .error e
      | .ok as => .ok (a :: as)

/-- The names in the order of reading (`tools/binavg/binavg.hpp:129-133`). -/
def places (one : Bool) (Nz : Int) (name : Str) : List Str := (List.range Nz.toNat).map fun i : Nat => place one Nz name (i + 1)

/-- `read_files` and `merge` (`tools/binavg/binavg.hpp:129-166`, `tools/specmoments/specmoments.cc:177-214`, `tools/mats/mats.cc:160-197`). -/
def spectrum (one : Bool) (nrcol col : Nat) (Nz : Int) (name : Str) (fs : Files (Bin K)) : Except Fail (List (K × K)) :=
  match each (load nrcol col fs) (places one Nz name) with
  | .error e => .error e
  | .ok l => .ok (Tools.mergeFiles l)

/-- `save_binary` (`tools/binavg/binavg.hpp:169-185`): frequency and weight in turn. -/
def saved (s : List (K × K)) : Bin K := ⟨s.flatMap fun p => [p.1, p.2], 0⟩

def specBin : Str := ['s', 'p', 'e', 'c', '.', 'b', 'i', 'n']

/-- `main` of `binavg` (`tools/binavg/binavg.cc:10-24`, `tools/binavg/binavg.hpp:188-195`): the files afterwards. -/
def binavg (fs : Files (Bin K)) (argv : List Str) : Except Fail (Files (Bin K)) :=
  match Cmd.binavg.main argv with
  | .error e => .error (.stop e)
  | .ok c =>
    match spectrum c.set.one c.set.nrcol c.set.col c.Nz c.name fs with
    | .error e => .error e
    | .ok s => .ok (write fs (if c.set.one then specBin else c.name) (saved s))

/-- `filter` of `specmoments` (`tools/specmoments/specmoments.cc:216-223`); without `-h` the limit is the largest number. -/
def filter (set : Cmd.MomSet) (s : List (K × K)) : List (K × K) :=
  s.map fun p =>
    let v := if |p.1| < (set.low : K) then 0 else p.2
    let v := match set.high with
      | none => v
      | some h => if (h : K) < |p.1| then 0 else v
    let v := if p.1 < 0 ∧ set.posonly = true then 0 else v
    let v := if 0 < p.1 ∧ set.negonly = true then 0 else v
    (p.1, v)

/-- `moments` and `central_moments` (`tools/specmoments/specmoments.cc:226-298`): the five numbers of the last line. -/
def moments (central : Bool) (s : List (K × K)) : Except Fail (List K) :=
  let mom0 := Tools.moment 0 s
  let mom1 := Tools.moment 1 s
  if central then
    if mom0 = 0 then .error .noweight
    else
      let mean := mom1 / mom0
      let cmom := fun k : Nat => (s.map fun p => p.2 * (p.1 - mean) ^ k).sum / mom0
      .ok [mom0, mom1, cmom 2, cmom 3, cmom 4]
  else .ok [mom0, mom1, Tools.moment 2 s, Tools.moment 3 s, Tools.moment 4 s]

/-- `main` of `specmoments` (`tools/specmoments/specmoments.cc:300-311`). There is one column of weights. -/
def specmoments (fs : Files (Bin K)) (argv : List Str) : Except Fail (List K) :=
  match Cmd.specmomentsMain argv with
  | .error e => .error (.stop e)
  | .ok c =>
    match spectrum c.set.one 1 1 c.Nz c.name fs with
    | .error e => .error e
    | .ok s => moments c.set.central (filter c.set s)

/-- `main` of `mats` (`tools/mats/mats.cc:249-267`): the rows of `spec.dat`. The assertions in `save` never fail (C87). -/
noncomputable def mats (fs : Files (Bin ℝ)) (argv : List Str) : Except Fail (List (ℝ × ℝ × ℝ)) :=
  match Cmd.mats.main argv with
  | .error e => .error (.stop e)
  | .ok c =>
    match spectrum c.set.one c.set.nrcol c.set.col c.Nz c.name fs with
    | .error e => .error e
    | .ok s =>
      match Mats.save (Mats.mesh (c.T : ℝ) c.nrmats.toNat) ((Mats.mesh (c.T : ℝ) c.nrmats.toNat).map (Mats.greens s)) with
      | none => .error .search
      | some rows => .ok rows

/-- `load` of `intavg` (`tools/intavg/intavg.cc:76-112`); the reading loop is that of `kk`. -/
def loadText (fs : Files Str) (fn : Str) : Except Fail (List (ℚ × ℚ)) :=
  match fs fn with
  | none => .error (.nofile fn)
  | some s =>
    let t := (kkRead s).map fun p => (Dec.value p.1, Dec.value p.2)
    if t.length < 2 then .error (.short fn) else .ok t

/-- `main` of `intavg` (`tools/intavg/intavg.cc:265-277`): the name of the file that is written, and its rows. -/
def intavg (fs : Files Str) (argv : List Str) : Except Fail (Str × List (ℚ × ℚ)) :=
  match Cmd.intavg.main argv with
  | .error e => .error (.stop e)
  | .ok c =>
    match each (loadText fs) (places false c.2 c.1) with
    | .error e => .error e
    | .ok l =>
      match Tools.intavg l with
      | none => .error .search
      | some rows => .ok (c.1, rows)

end Verif.Zrun
