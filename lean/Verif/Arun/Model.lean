import Verif.NrgChain.Model
import Verif.Adapt.Cmd
import Verif.Adapt.OdeProps
/-!
# The program `adapt`

Model of `tools/adapt/adapt.cc` as a whole: command line, parameter file, hybridisation function, mesh, energies, and the files that are written. The
integration is that of `Verif.Adapt`; its state, which the program keeps in the interpolation object from one calculation to the next, is passed on. Numbers are
real numbers. The messages on the terminal are not modelled, and neither are tables that are not strictly increasing, numbers that are not finite, and divisions by zero.
-/

namespace Verif.Arun
open Verif.Tools Verif.Text Verif.Param Verif.Adapt
open Verif.NrgChain (World FS Op after)
open scoped Classical

/-- How a calculation may end, other than with a result. -/
inductive Stop
  /-- an exception -/
  | thrown
  /-- the calculation has not ended after the given number of lines -/
  | running
  | unmodelled
  deriving DecidableEq

/-- Operations on files, and a value or the end of the calculation. -/
abbrev Act (α : Type) := List Op × Except Stop α

def bind {α β : Type} (a : Act α) (f : α → Act β) : Act β :=
  match a.2 with
  | .error e => (a.1, .error e)
  | .ok x => (a.1 ++ (f x).1, (f x).2)

def lift {α : Type} (r : Except Stop α) : Act α := ([], r)

/-- The parameters (`tools/adapt/adapt.hpp:47-60`); `boundary` is present if `hardgap` is set. -/
structure Settings where
  Lambda : ℝ
  par : Par ℝ
  adapt : Bool
  loadg : Bool
  boundary : Option ℝ
  bandrescale : ℝ
  eps : ℝ
  factor0 : ℝ
  maxIter : Int
  dos : Str

/-- `Pint` (`tools/adapt/parser.hpp:29-31`). -/
def int (W : World) (p : Map) (k : String) (d : Int) : Int :=
  match p.get k.toList with
  | some v => W.atoi v
  | none => d

/-- The assignments of `set_parameters` (`tools/adapt/adapt.hpp:292-318`), and the parameters that are read later (`265`, `326`). -/
noncomputable def readSettings (W : World) (p : Map) : Option Settings := do
  let L ← W.real p "Lambda" 2
  let boundary ← W.real p "boundary" 0
  let br ← W.real p "bandrescale" 1
  let xmax ← W.real p "xmax" 30
  let xfine ← W.real p "xfine" 5
  let step ← W.real p "outputstep" (1 / 64)
  let fine ← W.real p "dx_fine" (1 / 10 ^ 5)
  let fast ← W.real p "dx_fast" (1 / 10 ^ 4)
  let allowed ← W.real p "allowed_error" (1 / 10 ^ 10)
  let maxAbs ← W.real p "max_abs" 100
  let eps ← W.real p "secant_eps" (1 / 10 ^ 4)
  let factor ← W.real p "secant_factor" (1 / 10 ^ 7)
  pure { Lambda := L, adapt := toolBool p "adapt".toList false, loadg := toolBool p "loadg".toList false,
         boundary := if toolBool p "hardgap".toList false then some boundary else none, bandrescale := br,
         par := ⟨lam L, allowed, int W p "max_subdiv" 10, xmax, xfine, step, fine, fast, maxAbs⟩,
         eps := eps, factor0 := 1 + factor, maxIter := int W p "secant_max_iter" 10, dos := NrgChain.str p "dos" "Delta.dat".toList }

/-- The constructor of `Adapt` (`tools/adapt/adapt.hpp:319-322`), with the checks. -/
noncomputable def settings (W : World) (p : Map) : Except Stop Settings :=
  match readSettings W p with
  | none => .error .unmodelled
  | some s => if paramsOK s.Lambda (1 / 2 ^ 52) s.par then .ok s else .error .thrown

/-- An error of the functions shared with `nrgchain`: here all are exceptions. -/
def stopOf : NrgChain.Stop → Stop
  | .unmodelled => .unmodelled
  | _ => .thrown

/-- The first part of `load_init_rho` (`tools/adapt/adapt.hpp:260-266`). -/
noncomputable def sideTable (W : World) (fs : FS) (s : Settings) (sign : Sign) (flat : Option ℝ) : Except Stop (Tab ℝ) :=
  match flat with
  | some γ =>
    match flatRho γ with
    | some t => .ok t
    | none => .error .thrown
  | none =>
    match NrgChain.loadSide W fs s.dos (decide (sign = .pos)) with
    | .ok t => .ok t
    | .error e => .error (stopOf e)

/-- `load_init_rho` (`tools/adapt/adapt.hpp:260-278`): the table and its integral. -/
noncomputable def loadRho (W : World) (fs : FS) (s : Settings) (sign : Sign) (flat : Option ℝ) : Except Stop (Tab ℝ × Tab ℝ) :=
  match sideTable W fs s sign flat with
  | .error e => .error e
  | .ok t =>
    if s.bandrescale ≤ 0 then .error .unmodelled
    else
      match initRho (1 / 10 ^ 99) s.bandrescale t with
      | none => .error .thrown
      | some r => if NrgChain.Increasing r.1 then .ok r else .error .unmodelled

/-- `g_fn`, `f_fn` (`tools/adapt/adapt.hpp:323-324`). -/
def gFile : Sign → Str
  | .pos => "GSOL.dat".toList
  | .neg => "GSOLNEG.dat".toList

def fFile : Sign → Str
  | .pos => "FSOL.dat".toList
  | .neg => "FSOLNEG.dat".toList

/-- `save` (`tools/adapt/adapt.hpp:68`). -/
def line (W : World) (e : ℝ × ℝ) : Str := W.fmt 16 (some e.1) ++ ' ' :: (W.fmt 16 (some e.2) ++ ['\n'])

/-- Opening a file, and lines that are written to it. -/
def writes (W : World) (fn : Str) (lines : Tab ℝ) : List Op := .start fn :: lines.map fun e => .put fn (line W e)

def fresh : LinState ℝ := ⟨none, 0, 0, 0, 0, 0, false⟩

/-- `shoot_g` (`tools/adapt/adapt.hpp:163-190`): the ratio, the table, and the state of the interpolation object. -/
noncomputable def shoot (W : World) (n : ℕ) (s : Settings) (sign : Sign) (rho : Tab ℝ) (st : LinState ℝ) (A : ℝ) : Act (ℝ × Tab ℝ × LinState ℝ) :=
  if A = 0 then ([], .error .unmodelled)
  else
    match linEval rho st 1 with
    | none => (writes W (gFile sign) [], .error .thrown)
    | some (_, st) =>
      match shootLoop s.par (rhsG (lam s.Lambda) A rho) st n with
      | .running l _ => (writes W (gFile sign) l, .error .running)
      | .fail l _ => (writes W (gFile sign) l, .error .thrown)
      | .done l fin =>
        match linEval rho fin.obj 0 with
        | none => (writes W (gFile sign) l, .error .thrown)
        | some (r0, st) => (writes W (gFile sign) l, .ok (fin.y / (A / r0), l, st))

/-- The loop of the secant method (`tools/adapt/adapt.hpp:214-229`); the first number is that of the iterations left after this one. -/
noncomputable def secant (W : World) (n : ℕ) (s : Settings) (sign : Sign) (rho : Tab ℝ) : ℕ → ℝ → ℝ → ℝ → ℝ → LinState ℝ → Act (Tab ℝ × LinState ℝ)
  | k, x0, x1, y0, y1, st =>
    if y1 - y0 = 0 then ([], .error .unmodelled)
    else
      bind (shoot W n s sign rho st (x1 - (x1 - x0) / (y1 - y0) * y1)) fun r =>
        if |r.1 - 1| < s.eps then ([], .ok r.2)
        else
          match k with
          | 0 => ([], .error .thrown)
          | k + 1 => secant W n s sign rho k x1 (x1 - (x1 - x0) / (y1 - y0) * y1) y1 (r.1 - 1) r.2.2

/-- `calc_g` (`tools/adapt/adapt.hpp:196-230`). -/
noncomputable def calcG (W : World) (n : ℕ) (s : Settings) (sign : Sign) (rho : Tab ℝ) (st : LinState ℝ) (intA : ℝ) : Act (Tab ℝ × LinState ℝ) :=
  bind (shoot W n s sign rho st intA) fun r1 =>
    if |r1.1 - 1| < s.eps then ([], .ok r1.2)
    else
      let A := if 1 < r1.1 then intA * s.factor0 else intA / s.factor0
      bind (shoot W n s sign rho r1.2.2 A) fun r2 =>
        if |r2.1 - 1| < s.eps then ([], .ok r2.2)
        else secant W n s sign rho (s.maxIter - 1).toNat intA A (r1.1 - 1) (r2.1 - 1) r2.2.2

/-- A table for interpolation. -/
noncomputable def checked (t : Tab ℝ) : Except Stop (Tab ℝ) := if NrgChain.Increasing t then .ok t else .error .unmodelled

/-- `load_or_calc_g` (`tools/adapt/adapt.hpp:325-329`), called if `adapt` is set: the table of the mesh, and the state of the interpolation of `rho`. -/
noncomputable def mesh (W : World) (fs : FS) (n : ℕ) (s : Settings) (sign : Sign) (rho : Tab ℝ) (st : LinState ℝ) : Act (Option (Tab ℝ) × LinState ℝ) :=
  if s.adapt = false then ([], .ok (none, st))
  else if s.loadg then
    match NrgChain.loadG W fs (gFile sign) with
    | .error e => ([], .error (stopOf e))
    | .ok t => bind (lift (checked t)) fun t => ([], .ok (some t, st))
  else if ∃ e ∈ rho, e.2 ≤ 0 then ([], .error .unmodelled)
  else
    bind (calcG W n s sign rho st (trapezAbLoop 1 rho)) fun r => bind (lift (checked r.1)) fun t => ([], .ok (some t, r.2))

/-- `calc_f` (`tools/adapt/adapt.hpp:338-359`). -/
noncomputable def energies (W : World) (n : ℕ) (s : Settings) (sign : Sign) (rho ti : Tab ℝ) (g : Option (Tab ℝ)) (st : LinState ℝ) : Act Unit :=
  match linEval rho st 1 with
  | none => (writes W (fFile sign) [], .error .thrown)
  | some (_, st) =>
    match calcF s.par (rhsF (lam s.Lambda) ⟨g, s.boundary⟩ rho ti) s.Lambda ⟨st, fresh, fresh, fresh⟩ n with
    | .running l _ => (writes W (fFile sign) l, .error .running)
    | .fail l _ => (writes W (fFile sign) l, .error .thrown)
    | .done l _ => (writes W (fFile sign) l, .ok ())

/-- `run` (`tools/adapt/adapt.hpp:360-366`) for an object with given parameters, and the constructor. The report at the end is not modelled. The values of
`rho` at 0 and 1 are computed once for the terminal. -/
noncomputable def run (W : World) (fs : FS) (n : ℕ) (p : Map) (sign : Sign) (flat : Option ℝ) : Act Unit :=
  bind (lift (settings W p)) fun s =>
    bind (lift (loadRho W fs s sign flat)) fun r =>
      match linEval r.1 fresh 1 with
      | none => ([], .error .thrown)
      | some (_, st) => bind (mesh W fs n s sign r.1 st) fun m => energies W n s sign r.1 r.2 m.1 m.2

inductive Exit
  | success
  | failure
  | running
  | unmodelled
  deriving DecidableEq

def exitOf : Except Stop Unit → Exit
  | .ok _ => .success
  | .error .thrown => .failure
  | .error .running => .running
  | .error .unmodelled => .unmodelled

/-- `main` (`tools/adapt/adapt.cc:119-137`) with the constructor of `Params` (`tools/adapt/parser.hpp:20-24`), followed for `n` lines of every integration. -/
noncomputable def program (W : World) (num : Str → Option ℝ) (fs : FS) (n : ℕ) (args : List Str) : List Op × Exit :=
  match cmdLine num args with
  | .help => ([], .success)
  | .error => ([], .failure)
  | .ok o =>
    match fs o.paramFn with
    | none => ([], .failure)
    | some text =>
      let r := run W fs n (toolParams text "param".toList) o.sign o.flat
      (r.1, exitOf r.2)

end Verif.Arun
