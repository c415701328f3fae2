import Verif.Tools.Chain
import Verif.Tools.LinInt
import Verif.Adapt.Model
import Verif.Table.Model
import Verif.Param.Tool
import Mathlib.Algebra.Order.Floor.Ring
/-!
# The tool that computes the Wilson chain

Model of `tools/nrgchain/nrgchain.cc` as a whole: parameters, tables of the hybridisation function, saving and loading of the tables, the
tridiagonalisation and the files that are written; both as the separate program and as the function called by `instantiate`. Numbers are real numbers; `none`
is a NaN. The messages on the terminal are not modelled.
-/

namespace Verif.NrgChain
open Verif.Tools Verif.Text Verif.Param

/-- Conversion of numbers: `atof` (`none` for NaN and infinities), `atoi`, and output with a given `setprecision`. -/
structure World where
  atof : Str → Option ℝ
  atoi : Str → Int
  fmt : ℕ → Option ℝ → Str

open scoped Classical

abbrev FS := Str → Option Str

/-- What is done with files: opening for writing (which empties the file), and output. -/
inductive Op
  | start (fn : Str)
  | put (fn text : Str)
  deriving DecidableEq

def Op.file : Op → Str
  | .start fn => fn
  | .put fn _ => fn

def Op.run (fs : FS) : Op → FS
  | .start fn => fun n => if n = fn then some [] else fs n
  | .put fn t => fun n => if n = fn then some ((fs fn).getD [] ++ t) else fs n

/-- The files after some operations. -/
def after (fs : FS) (ops : List Op) : FS := ops.foldl Op.run fs

/-- How a calculation may end, other than with a result. -/
inductive Stop
  /-- an exception -/
  | thrown
  /-- `exit(1)` -/
  | exit
  /-- the program is aborted inside the GMP library (a NaN, the square root of a negative number, a division by zero) -/
  | abort
  /-- reading beyond the end of a table -/
  | undefined
  /-- tables with NaN or that are not strictly increasing, and a band that is not rescaled by a positive number: the model says nothing -/
  | unmodelled
  deriving DecidableEq

/-- Operations on files, and a value or the end of the calculation. -/
abbrev Act (α : Type) := List Op × Except Stop α

def Act.bind {α β : Type} (a : Act α) (f : α → Act β) : Act β :=
  match a.2 with
  | .error e => (a.1, .error e)
  | .ok x => (a.1 ++ (f x).1, (f x).2)

def lift {α : Type} (r : Except Stop α) : Act α := ([], r)

/-- The global variables (`tools/nrgchain/nrgchain.cc:30-66`, `tools/nrgchain/parser.h:10`). The interpolation objects are represented by their tables. -/
structure State where
  params : Map
  Lambda : ℝ
  z : ℝ
  xmax : ℝ
  mMAX : ℕ
  Nmax : ℕ
  bandrescale : ℝ
  rescalexi : Bool
  preccpp : ℕ
  rhoP : Tab ℝ
  rhoN : Tab ℝ
  intP : Tab ℝ
  intN : Tab ℝ
  gP : Tab ℝ
  gN : Tab ℝ
  fP : Tab ℝ
  fN : Tab ℝ
  deP : List (Option ℝ)
  deN : List (Option ℝ)
  duP : List (Option ℝ)
  duN : List (Option ℝ)
  adapt : Bool
  band : Str
  save : Bool
  load : Bool
  tri : Bool
  xi : List ℝ
  zeta : List ℝ
  theta : ℝ

/-- The global variables when the program starts (`tools/nrgchain/nrgchain.cc:30-66`): `-1` is the default of `LambdaCache`. -/
noncomputable def static : State :=
  { params := [], Lambda := -1, z := 0, xmax := 0, mMAX := 0, Nmax := 0, bandrescale := 1, rescalexi := false, preccpp := 0,
    rhoP := [], rhoN := [], intP := [], intN := [], gP := [], gN := [], fP := [], fN := [], deP := [], deN := [], duP := [], duN := [],
    adapt := false, band := [], save := false, load := false, tri := false, xi := [], zeta := [], theta := 0 }

/-- `reset_calculation_state` (`tools/nrgchain/nrgchain.cc:544-577`). -/
noncomputable def reset (s : State) : State :=
  { s with
    params := [], Lambda := -1, z := 0, xmax := 0, mMAX := 0, Nmax := 0, bandrescale := 1, rescalexi := false, preccpp := 0,
    rhoP := [], rhoN := [], intP := [], intN := [], gP := [], gN := [], fP := [], fN := [], deP := [], deN := [], duP := [], duN := [],
    adapt := false, band := [], save := false, load := false, tri := true, xi := [], zeta := [], theta := 0 }

/-! ## Parameters -/

/-- `P` (`tools/nrgchain/parser.h:13-15`). -/
def World.real (W : World) (m : Map) (k : String) (d : ℝ) : Option ℝ :=
  match m.get k.toList with
  | some v => W.atof v
  | none => some d

/-- `Pint` (`tools/nrgchain/parser.h:17-19`), converted to `unsigned int`. -/
def World.nat (W : World) (m : Map) (k : String) (d : ℕ) : ℕ :=
  match m.get k.toList with
  | some v => (W.atoi v % 2 ^ 32).toNat
  | none => d % 2 ^ 32

/-- `Pstr` (`tools/nrgchain/parser.h:21-23`). -/
def str (m : Map) (k : String) (d : Str) : Str :=
  match m.get k.toList with
  | some v => v
  | none => d

def flatBand : Str := "flat".toList

/-- `set_parameters` (`tools/nrgchain/nrgchain.cc:145-184`). -/
noncomputable def setParameters (W : World) (s : State) : Except Stop State :=
  match W.real s.params "Lambda" 2, W.real s.params "z" 1, W.real s.params "xmax" 30, W.real s.params "bandrescale" 1 with
  | some L, some z, some xmax, br =>
    let nmax := W.nat s.params "Nmax" 0
    let mmax := W.nat s.params "mMAX" (2 * nmax)
    let prec := W.nat s.params "preccpp" 2000
    if ¬ 1 < L then .error .thrown
    else if ¬ (0 < z ∧ z ≤ 1) then .error .thrown
    else if ¬ 1 ≤ xmax then .error .thrown
    else if ¬ 0 < mmax then .error .thrown
    else if ¬ 10 < prec then .error .thrown
    else
      match br with
      | none => .error .unmodelled
      | some b =>
        .ok { s with
          Lambda := L, z := z, adapt := toolBool s.params "adapt".toList false, bandrescale := b,
          rescalexi := toolBool s.params "rescalexi".toList false, xmax := xmax, Nmax := nmax, mMAX := mmax, preccpp := prec,
          band := str s.params "band" "adapt".toList,
          save := toolBool s.params "nrgchain_tables_save".toList false, load := toolBool s.params "nrgchain_tables_load".toList false,
          tri := toolBool s.params "nrgchains_tridiag".toList true }
  | _, _, _, _ => .error .thrown

/-- `TableMode` (`tools/nrgchain/nrgchain.hpp:20-24`). -/
inductive Mode
  | calculate
  | saveOnly
  | loadAndTridiagonalize
  deriving DecidableEq

/-- `apply_mode` (`tools/nrgchain/nrgchain.cc:583-594`), and `cmd_line_post` (`128-143`). -/
def applyMode (m : Mode) (s : State) : State :=
  match m with
  | .calculate => s
  | .saveOnly => { s with load := false, save := true, tri := false }
  | .loadAndTridiagonalize => { s with load := true, save := false, tri := true }

/-! ## Reading -/

/-- `load_pairs` (`tools/common/tabulated.hpp:38-50`), the rows. -/
def rows (W : World) (text : Str) : Option (List (Option ℝ × Option ℝ)) :=
  (Table.dataLines text).mapM fun line =>
    match Table.fields line with
    | a :: b :: _ => some (W.atof a, W.atof b)
    | _ => none

/-- A table without NaN. -/
def numbers : List (Option ℝ × Option ℝ) → Option (Tab ℝ)
  | [] => some []
  | (some x, some y) :: l => (numbers l).map ((x, y) :: ·)
  | _ :: _ => none

/-- `load_g` (`tools/nrgchain/load.h:28-32`) and the constructor of the interpolation, which refuses a single point. -/
def loadG (W : World) (fs : FS) (fn : Str) : Except Stop (Tab ℝ) :=
  match (fs fn).bind (rows W) with
  | none => .error .exit
  | some l =>
    if l.length < 2 then .error .exit
    else
      match numbers l with
      | none => .error .unmodelled
      | some t => .ok t

/-- The comparison of pairs used by `std::sort`. -/
def pairLE (a b : ℝ × ℝ) : Prop := a.1 < b.1 ∨ a.1 = b.1 ∧ a.2 ≤ b.2

/-- The loop of `load_abs_pairs` (`tools/common/tabulated.hpp:73-96`) with the condition of `tools/nrgchain/load.h:52`. A row with a NaN in the first
column is on neither side of zero. -/
noncomputable def side (pos : Bool) : List (Option ℝ × Option ℝ) → Except Stop (Tab ℝ)
  | [] => .ok []
  | (none, _) :: l => side pos l
  | (some x, y) :: l =>
    if (pos = true ∧ 0 < x) ∨ (pos = false ∧ x < 0) then
      match y with
      | none => .error .unmodelled
      | some y =>
        if y < 0 then .error .exit
        else
          match side pos l with
          | .error e => .error e
          | .ok t => .ok ((|x|, y) :: t)
    else side pos l

/-- `load_rho` of `tools/nrgchain/load.h:45-57`. -/
noncomputable def loadSide (W : World) (fs : FS) (fn : Str) (pos : Bool) : Except Stop (Tab ℝ) :=
  match (fs fn).bind (rows W) with
  | none => .error .exit
  | some l =>
    match side pos l with
    | .error e => .error e
    | .ok [] => .error .exit
    | .ok (p :: t) => .ok ((p :: t).insertionSort pairLE)

/-- `load_rho` of `tools/nrgchain/nrgchain.cc:196-207`: one side, rescaled, with the point near zero. -/
noncomputable def loadRho (W : World) (fs : FS) (s : State) (pos : Bool) : Except Stop (Tab ℝ) :=
  match loadSide W fs (str s.params "dos" "Delta.dat".toList) pos with
  | .error e => .error e
  | .ok t =>
    if s.bandrescale ≤ 0 then .error .unmodelled
    else .ok (Adapt.addZeroPoint (1 / 10 ^ 99) (Adapt.rescaleXY (1 / s.bandrescale) s.bandrescale t))

/-- Whether the model describes the interpolation: two points at least, strictly increasing. -/
def Increasing (t : Tab ℝ) : Prop := 2 ≤ t.length ∧ ∀ i, i + 1 < t.length → t.x i < t.x (i + 1)

/-- `init_rho` (`tools/nrgchain/nrgchain.cc:209-221`) on one side. -/
noncomputable def initSide (t : Tab ℝ) : Except Stop (Tab ℝ) :=
  match trapez t with
  | none => .error .exit
  | some (ti, _) => if Increasing t then .ok ti else .error .unmodelled

noncomputable def checked (t : Tab ℝ) : Except Stop (Tab ℝ) :=
  if Increasing t then .ok t else .error .unmodelled

/-- `numeric_limits<double>::min()`. -/
noncomputable def mindbl : ℝ := 1 / 2 ^ 1022

/-- The flat band of `calc_tables` (`tools/nrgchain/nrgchain.cc:524-530`). -/
noncomputable def flatTab : Tab ℝ := [(mindbl, 1 / 2), (1, 1 / 2)]

/-- `load_g` (`tools/nrgchain/nrgchain.cc:223-233`), called if `adapt` is set. -/
noncomputable def loadGs (W : World) (fs : FS) (s : State) : Except Stop (Tab ℝ × Tab ℝ) :=
  if s.adapt then do
    let a ← loadG W fs "GSOL.dat".toList
    let b ← loadG W fs "GSOLNEG.dat".toList
    let a ← checked a
    let b ← checked b
    pure (a, b)
  else pure (s.gP, s.gN)

/-- The first part of `calc_tables` (`tools/nrgchain/nrgchain.cc:518-533`) with `load_g` and `load_f` (`223-241`). Nothing is written. -/
noncomputable def loadInput (W : World) (fs : FS) (s : State) : Except Stop State :=
  if s.band ≠ flatBand then do
    let rp ← loadRho W fs s true
    let rn ← loadRho W fs s false
    let g ← loadGs W fs s
    let fp ← loadG W fs "FSOL.dat".toList
    let fn ← loadG W fs "FSOLNEG.dat".toList
    let fp ← checked fp
    let fn ← checked fn
    let ip ← initSide rp
    let inn ← initSide rn
    pure { s with rhoP := rp, rhoN := rn, gP := g.1, gN := g.2, fP := fp, fN := fn, intP := ip, intN := inn }
  else do
    let ip ← initSide flatTab
    let inn ← initSide flatTab
    pure { s with rhoP := flatTab, rhoN := flatTab, intP := ip, intN := inn }

/-! ## The tables -/

/-- The value of an interpolated function. The object remembers the last interval; for strictly increasing tables the value does not depend on it (`Tools.linEval_spec`). -/
noncomputable def interpFn (t : Tab ℝ) (x : ℝ) : ℝ := ((linEval t ⟨none, 0, 0, 0, 0, 0, false⟩ x).map (·.1)).getD 0

/-- The same for the integrated function (`Tools.intEval_spec`). -/
noncomputable def intFn (t ti : Tab ℝ) (x : ℝ) : ℝ := ((intEval t ti ⟨none, 0, 0, 0, 0, 0, false⟩ x).map (·.1)).getD 0

/-- `Eps_flat` (`tools/nrgchain/nrgchain.cc:85-95`). -/
noncomputable def epsFlat (L x : ℝ) : ℝ :=
  let j : ℤ := ⌊x⌋
  let z := x - j
  if j = 1 then (1 - L ^ (-z)) / Real.log L + 1 - z else (1 - L ^ (-1 : ℝ)) / Real.log L * L ^ (2 - (j : ℝ) - z)

/-- `Eps_pos`, `Eps_neg` (`tools/nrgchain/nrgchain.cc:99-113`); the assertion `x >= 1` holds because `z` is positive. -/
noncomputable def energyAt (s : State) (f : Tab ℝ) (x : ℝ) : ℝ := if s.band = flatBand then epsFlat s.Lambda x else interpFn f x * s.Lambda ^ (2 - x)

/-- The function `g` in `eps_pos`, `eps_neg` (`tools/nrgchain/nrgchain.cc:73-81`). -/
noncomputable def gAt (s : State) (g : Tab ℝ) (x : ℝ) : ℝ := if s.adapt then interpFn g x else 1

/-- The coefficients computed by `tables` (`tools/nrgchain/nrgchain.cc:249-308`). -/
noncomputable def star (s : State) : Star :=
  starTables (intFn s.rhoP s.intP) (intFn s.rhoN s.intN) (epsMesh s.Lambda (gAt s s.gP)) (epsMesh s.Lambda (gAt s s.gN)) s.z s.mMAX

def thetaFile : Str := "theta.dat".toList
def xiFile : Str := "xi.dat".toList
def zetaFile : Str := "zeta.dat".toList

/-- A file with one line. -/
def line (W : World) (prec : ℕ) (x : Option ℝ) : Str := W.fmt prec x ++ ['\n']

/-- `tables` (`tools/nrgchain/nrgchain.cc:249-308`). -/
noncomputable def tables (W : World) (s : State) : Act State :=
  ([.start thetaFile, .put thetaFile (line W 16 (some (star s).theta))],
    if (star s).rejected then .error .exit
    else .ok { s with
      theta := (star s).theta,
      deP := (List.range (s.mMAX + 1)).map fun m : ℕ => some (energyAt s s.fP (s.z + m + 1)),
      deN := (List.range (s.mMAX + 1)).map fun m : ℕ => some (energyAt s s.fN (s.z + m + 1)),
      duP := (List.range (s.mMAX + 1)).map fun m : ℕ => ((star s).du m).1,
      duN := (List.range (s.mMAX + 1)).map fun m : ℕ => ((star s).du m).2 })

/-- The files of the tables. -/
def dePFile : Str := "de_pos.dat".toList
def deNFile : Str := "de_neg.dat".toList
def duPFile : Str := "du_pos.dat".toList
def duNFile : Str := "du_neg.dat".toList

/-- `save` (`tools/nrgchain/load.h:65-69`, `tools/common/tabulated.hpp:112-115`). -/
def saveTable (W : World) (fn : Str) (v : List (Option ℝ)) : List Op := [.start fn, .put fn (v.flatMap (line W 18))]

/-- `save_tables` (`tools/nrgchain/nrgchain.cc:310-315`). -/
def saveTables (W : World) (s : State) : List Op :=
  saveTable W dePFile s.deP ++ saveTable W deNFile s.deN ++ saveTable W duPFile s.duP ++ saveTable W duNFile s.duN

/-- `load` (`tools/nrgchain/load.h:71-78`, `tools/common/tabulated.hpp:117-125`). -/
def loadTable (W : World) (fs : FS) (fn : Str) : Except Stop (List (Option ℝ)) :=
  match fs fn with
  | none => .error .exit
  | some t => .ok ((Table.dataLines t).map W.atof)

/-- `load_tables` (`tools/nrgchain/nrgchain.cc:317-322`). -/
def loadTables (W : World) (fs : FS) (s : State) : Except Stop State := do
  let a ← loadTable W fs dePFile
  let b ← loadTable W fs deNFile
  let c ← loadTable W fs duPFile
  let d ← loadTable W fs duNFile
  pure { s with deP := a, deN := b, duP := c, duN := d }

/-- `calc_tables` (`tools/nrgchain/nrgchain.cc:517-542`). -/
noncomputable def calcTables (W : World) (fs : FS) (s : State) : Act State :=
  (lift (loadInput W fs s)).bind fun s =>
    (tables W s).bind fun s => if s.save then (saveTables W s, .ok s) else ([], .ok s)

/-! ## The chain -/

/-- The bath that `tridiag` reads from the tables (`tools/nrgchain/nrgchain.cc:409-416`): reading beyond the end is undefined; GMP aborts at a NaN. -/
noncomputable def bathOf (s : State) : Except Stop Bath :=
  if s.deP.length ≤ s.mMAX ∨ s.deN.length ≤ s.mMAX ∨ s.duP.length ≤ s.mMAX ∨ s.duN.length ≤ s.mMAX then .error .undefined
  else if ∃ k ≤ s.mMAX, s.deP.getD k none = none ∨ s.deN.getD k none = none ∨ s.duP.getD k none = none ∨ s.duN.getD k none = none then .error .abort
  else .ok ⟨s.mMAX, fun k => (s.deP.getD k none).getD 0, fun k => (s.deN.getD k none).getD 0,
    ⟨fun k => (s.duP.getD k none).getD 0, fun k => (s.duN.getD k none).getD 0⟩⟩

/-- The end of the program for each way in which the iteration may stop. -/
def stopOf : Tools.Stop → Stop
  | .xi2zero => .exit
  | .sqrtNegative => .abort
  | .divZero => .abort

/-- `SCALE` (`tools/nrgchain/nrgchain.cc:245`). -/
noncomputable def scale (s : State) (N : ℕ) : ℝ := (1 - 1 / s.Lambda) / Real.log s.Lambda * s.Lambda ^ (-((N : ℝ) - 1) / 2 + 1 - s.z)

/-- `coef_xi` (`tools/nrgchain/nrgchain.cc:491-494`). -/
noncomputable def coefXi (s : State) (n : ℕ) (x : ℝ) : ℝ := x / (if s.rescalexi then scale s (n + 1) else 1) * s.bandrescale

/-- `coef_zeta` (`tools/nrgchain/nrgchain.cc:492-495`). -/
noncomputable def coefZeta (s : State) (x : ℝ) : ℝ := x * s.bandrescale

/-- The loop of `tridiag` (`tools/nrgchain/nrgchain.cc:420-514`): the number of passes that are left, the index, and the coefficients so far. -/
noncomputable def chainLoop (W : World) (s : State) (b : Bath) : ℕ → ℕ → LState → List ℝ → List ℝ → Act (List ℝ × List ℝ)
  | 0, _, _, xs, zs => ([], .ok (xs, zs))
  | k + 1, n, l, xs, zs =>
    match lanczosStep b l with
    | .error e => ([], .error (stopOf e))
    | .ok l' =>
      let x := coefXi s n l'.xiPrev
      let y := coefZeta s (l'.zeta.getLastD 0)
      let r := chainLoop W s b k (n + 1) l' (xs ++ [x]) (zs ++ [y])
      (.put xiFile (line W 16 (some x)) :: .put zetaFile (line W 16 (some y)) :: r.1, r.2)

/-- `tridiag` (`tools/nrgchain/nrgchain.cc:374-515`). -/
noncomputable def tridiag (W : World) (s : State) : Act State :=
  Act.bind ([.start xiFile, .start zetaFile], .ok ()) fun _ =>
    (lift (bathOf s)).bind fun b =>
      match lanczosInit b with
      | .error e => ([], .error (stopOf e))
      | .ok l => (chainLoop W s b (s.Nmax + 1) 0 l [] []).bind fun r => ([], .ok { s with xi := r.1, zeta := r.2 })

/-! ## The calculation -/

/-- `run_calculation` (`tools/nrgchain/nrgchain.cc:602-615`) and the same part of `main` (`643-652`). -/
noncomputable def run (W : World) (fs : FS) (m : Mode) (s : State) : Act State :=
  (lift (setParameters W s)).bind fun s =>
    let s := applyMode m s
    (if s.load then lift (loadTables W fs s) else calcTables W fs s).bind fun s => if s.tri then tridiag W s else ([], .ok s)

/-- `WilsonChannel` (`tools/nrgchain/nrgchain.hpp:10-14`). -/
structure Channel where
  theta : ℝ
  xi : List ℝ
  zeta : List ℝ

/-- `make_result` (`tools/nrgchain/nrgchain.cc:596-600`). -/
def State.channel (s : State) : Channel := ⟨s.theta, s.xi, s.zeta⟩

/-- `parser` (`tools/nrgchain/parser.h:29-34`). -/
def parse (fs : FS) (fn : Str) (s : State) : Except Stop State :=
  match fs fn with
  | none => .error .exit
  | some t =>
    match toolFind "param".toList (lines t) with
    | none => .ok s
    | some ls => .ok { s with params := toolParse ls s.params }

/-- `calculate_from_params` (`tools/nrgchain/nrgchain.cc:619-623`), called when the global variables have the values `s`. The globals that a failed
calculation leaves behind are not modelled: the theorems hold for all values. -/
noncomputable def fromParams (W : World) (fs : FS) (p : Map) (m : Mode) (s : State) : Act Channel :=
  (run W fs m { reset s with params := p }).bind fun s => ([], .ok s.channel)

/-- `calculate_from_file` (`tools/nrgchain/nrgchain.cc:625-630`). -/
noncomputable def fromFile (W : World) (fs : FS) (fn : Str) (m : Mode) (s : State) : Act Channel :=
  (lift (parse fs fn (reset s))).bind fun s => (run W fs m s).bind fun s => ([], .ok s.channel)

/-- How the program ends. -/
inductive Exit
  | success
  | failure
  | abort
  | undefined
  | unmodelled
  deriving DecidableEq

def exitOf {α : Type} : Except Stop α → Exit
  | .ok _ => .success
  | .error .thrown => .failure
  | .error .exit => .failure
  | .error .abort => .abort
  | .error .undefined => .undefined
  | .error .unmodelled => .unmodelled

/-- The mode given on the command line (`cmd_line_post`, `tools/nrgchain/nrgchain.cc:128-143`). -/
def modeOf (args : List Str) : Mode :=
  if args = ["s".toList] then .saveOnly else if args = ["l".toList] then .loadAndTridiagonalize else .calculate

/-- `main` (`tools/nrgchain/nrgchain.cc:634-663`), with `cmd_line` (`119-126`), from the initial values `s` of the globals. -/
noncomputable def main (W : World) (args : List Str) (fs : FS) (s : State) : List Op × Exit :=
  if args.head? = some "-h".toList then ([], .success)
  else
    let r := (lift (parse fs "param".toList s)).bind fun s => run W fs (modeOf args) s
    (r.1, exitOf r.2)

end Verif.NrgChain
