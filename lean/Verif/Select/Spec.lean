import Verif.Select.Model
/-!
# What the lists of spectra mean
-/

namespace Verif.Select

open Verif.Text Verif.Config

/-- `x` is one of the words of `s`: a non-empty stretch without white space, delimited
by white space or the ends of `s`. -/
def Word (x s : Str) : Prop :=
  x ≠ [] ∧ (∀ c ∈ x, isSpace c = false) ∧
    ∃ a b, s = a ++ (x ++ b) ∧ (∀ c ∈ a.getLast?, isSpace c = true) ∧ (∀ c ∈ b.head?, isSpace c = true)

/-- The setting that lists the spectra of a family. -/
def Cfg.list (cfg : Cfg) : Pre → Str
  | .corr => cfg.specs
  | .chit => cfg.specchit
  | .spin => cfg.spect
  | .orbspin => cfg.specot
  | .spec => cfg.specd
  | .gt => cfg.specgt
  | .i1t => cfg.speci1t
  | .i2t => cfg.speci2t
  | .specq => cfg.specq

/-- The kinds of operators that are combined in a family. -/
def Combines : Pre → Kind → Kind → Prop
  | .corr, a, b => (a = .p ∧ b = .p) ∨ ((a = .s ∨ a = .g) ∧ (b = .s ∨ b = .g))
  | .chit, a, b => (a = .s ∨ a = .g) ∧ (b = .s ∨ b = .g)
  | .spin, a, b => a = .t ∧ b = .t
  | .orbspin, a, b => a = .ot ∧ b = .ot
  | .spec, a, b => a = .d ∧ b = .d
  | .gt, a, b => a = .d ∧ b = .d
  | .i1t, a, b => a = .d ∧ b = .d
  | .i2t, a, b => a = .d ∧ b = .d
  | .specq, a, b => a = .q ∧ b = .q

/-- Families resolved by the spin of the doublet operators. -/
def Pre.resolved : Pre → Bool
  | .spec | .gt | .i1t | .i2t => true
  | _ => false

/-- The spin label of a spectrum: -1 and 1 if the family is resolved and the symmetry type
distinguishes the spins, 0 otherwise. -/
def SpinOK (isfield : Bool) (pre : Pre) (sp : Int) : Prop :=
  if pre.resolved = true ∧ isfield = true then sp = -1 ∨ sp = 1 else sp = 0

/-- The statistics: boson correlators for singlets and triplets, fermion ones for
doublets and quadruplets. -/
def Pre.boson : Pre → Bool
  | .corr | .chit | .spin | .orbspin => true
  | _ => false

/-- The algorithm is applied in this sweep to the spectra of this family. -/
def Applies (run : Run) (sw : Sw) : Pre → Meth → Prop
  | .gt, m => run = .nrg ∧ m = .GT
  | .i1t, m => run = .nrg ∧ m = .I1T
  | .i2t, m => run = .nrg ∧ m = .I2T
  | .chit, m => run = .nrg ∧ m = .CHIT
  | _, .freq a => enabled sw run a = true
  | _, _ => False

/-- Name of a spectrum: the names of the operators, and `u` or `d` for a spin label. -/
def NameOf (n1 n2 : Str) (sp : Int) (name : Str) : Prop :=
  (sp = 0 ∧ name = n1 ++ "-".toList ++ n2) ∨ (sp = 1 ∧ name = n1 ++ "-".toList ++ n2 ++ "-u".toList) ∨
    (sp = -1 ∧ name = n1 ++ "-".toList ++ n2 ++ "-d".toList)

/-- The spectrum is requested and can be computed. -/
structure Wanted (run : Run) (cfg : Cfg) (names : Kind → List Str) (e : Entry) : Prop where
  first : e.n1 ∈ names e.k1
  second : e.n2 ∈ names e.k2
  combines : Combines e.pre e.k1 e.k2
  spin : SpinOK cfg.isfield e.pre e.spin
  name : NameOf e.n1 e.n2 e.spin e.name
  listed : Word e.name (cfg.list e.pre)
  applies : Applies run cfg.sw e.pre e.meth
  stat : e.bosonic = e.pre.boson

/-- The operator in its `i`-th step, when it is recalculated in every step
`N, N+1, …` and trimmed in between. -/
def carried {M : Type} (env : Env M) (N : Nat) (k : Kind) (n : Str) (m : M) : Nat → M
  | 0 => env.recalc N k n m
  | i + 1 => env.recalc (N + (i + 1)) k n (env.trim (N + i) (carried env N k n m i))

end Verif.Select
