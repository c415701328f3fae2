import Verif.Spin.Model
import Mathlib.Tactic.Ring
import Mathlib.Tactic.Linarith
import Mathlib.Tactic.FieldSimp
import Mathlib.Tactic.NormNum
/-!
# Specification: angular-momentum coupling and the states of a multiplet

Nothing here uses the model's factors.
-/

namespace Verif.Spin.Spec
open Verif.Invar (Label)
open Verif.Symm

/-- The quantum numbers that occur when a multiplet `b` is coupled with a
multiplet `c`: for spins given by their multiplicities `|b-c|+1, |b-c|+3, …,
b+c-1`; for integer angular momenta `|b-c|, …, b+c`; otherwise the one value the
group product gives. -/
def finals : Test → Int → Int → List Int
  | .su2, b, c => (List.range (min b c).toNat).map fun k : Nat => ((b - c).natAbs : Int) + 1 + 2 * (k : Int)
  | .su2T, b, c => (List.range (min (2 * b + 1) (2 * c + 1)).toNat).map fun k : Nat => ((b - c).natAbs : Int) + (k : Int)
  | .u1, b, c => [b + c]
  | .z2, b, c => [b * c]
  | .c3, b, c => [(b + c).tmod 3]
  | .none, _, _ => []

/-- The labels that occur when a tensor operator with label `op` acts on a
multiplet with label `Ip`. -/
def finalLabels : List Field → Label → Label → List Label
  | f :: fs, b :: bs, c :: cs => (finals f.test b c).flatMap fun a => (finalLabels fs bs cs).map (a :: ·)
  | _, _, _ => [[]]

/-- The exact degeneracy factor: summing the squared Clebsch-Gordan coefficients
over all components of the two multiplets for one component of the operator gives
the multiplicity of the final multiplet over that of the operator. -/
def exactFactor (fs : List Field) (op I1 : Label) : ℚ := (mult fs I1 : ℚ) / (mult fs op : ℚ)

/-- A class's factor function is exact for operators with label `op`. -/
def Exact (fs : List Field) (fac : Label → Label → Option ℚ) (op : Label) : Prop :=
  ∀ Ip I1 : Label, Ip.length = fs.length → allowed fs Ip = true → I1 ∈ finalLabels fs Ip op →
    fac Ip I1 = some (exactFactor fs op I1)

/-- Sum rule: over all final multiplets the factors add up to the multiplicity
of the initial one. -/
def SumRule (fs : List Field) (fac : Label → Label → Option ℚ) (op : Label) : Prop :=
  ∀ Ip : Label, Ip.length = fs.length → allowed fs Ip = true →
    ∃ vs, (finalLabels fs Ip op).mapM (fac Ip) = some vs ∧ vs.sum = (mult fs Ip : ℚ)

/-- Whenever the factor is defined and non-zero the transition is one that an
operator with one of the labels `ops` can make. -/
def Rejects (fs : List Field) (fac : Label → Label → Option ℚ) (ops : List Label) : Prop :=
  ∀ Ip I1 : Label, Ip.length = fs.length → I1.length = fs.length →
    allowed fs Ip = true → allowed fs I1 = true → ∀ v, fac Ip I1 = some v → v ≠ 0 →
    ∃ op ∈ ops, I1 ∈ finalLabels fs Ip op

/-! ### States of a multiplet -/

/-- The values a quantum number takes on the individual states of a multiplet:
`m = -j, …, j` for a spin (label `2j+1`) or an integer angular momentum (label
`j`), the label itself otherwise. -/
def comps (f : Field) (a : Int) : List ℚ :=
  match f.mult with
  | .val => (List.range a.toNat).map fun k : Nat => (k : ℚ) - ((a : ℚ) - 1) / 2
  | .twiceAddOne => (List.range (2 * a + 1).toNat).map fun k : Nat => (k : ℚ) - (a : ℚ)
  | .one => [(a : ℚ)]

/-- All individual states of the multiplet `I`. -/
def states : List Field → Label → List (List ℚ)
  | f :: fs, a :: as => (comps f a).flatMap fun m => (states fs as).map (m :: ·)
  | _, _ => [[]]

/-- Value on one state of the observable in a column of the thermodynamic
table; `x` is the component of the quantum number (`m` for multiplets, the label
otherwise; labels named `SSZ` or `SZ` are `2Sz+1`).  The charge of an isospin
component is `2m`. -/
def observable (column : String) (multiplet : Bool) (x : ℚ) : ℚ :=
  if column = "<Sz>" then (x - 1) / 2
  else if column = "<Sz^2>" ∨ column = "<Jz^2>" then (if multiplet then x ^ 2 else ((x - 1) / 2) ^ 2)
  else if column = "<Tz^2>" then x ^ 2
  else if column = "<Q>" ∨ column = "<Q1>" ∨ column = "<Q2>" ∨ column = "<Q3>" ∨ column = "<Tz>" then x
  else if multiplet then (2 * x) ^ 2 else x ^ 2

/-- Names of the quantum numbers a column may be about: spin columns use the spin
(`SS` multiplicity, `SSZ`/`SZ` projection), orbital columns `T`/`TZ`, total angular
momentum `JJ`, and charge columns the charge or the isospin, whose component is half
the charge. -/
def subjects (column : String) : List String :=
  if column = "<Sz>" ∨ column = "<Sz^2>" then ["SS", "SSZ", "SZ"]
  else if column = "<Tz>" ∨ column = "<Tz^2>" then ["T", "TZ"]
  else if column = "<Jz^2>" then ["JJ"]
  else if column = "<Q>" ∨ column = "<Q^2>" then ["Q", "II"]
  else if column = "<Q1>" ∨ column = "<Q1^2>" then ["Q1", "II1"]
  else if column = "<Q2>" ∨ column = "<Q2^2>" then ["Q2", "II2"]
  else if column = "<Q3>" ∨ column = "<Q3^2>" then ["Q3"]
  else []

/-- The field with a given name. -/
def fieldOf (fs : List Field) (n : String) : Option Field := fs.find? fun f => f.name = n

/-- Thermal average of a column over all individual states of all multiplets;
every state of a multiplet has the multiplet's Boltzmann weight. -/
def average (fs : List Field) (column qn : String) (multiplet : Bool) (diag : List (Label × ℚ)) : ℚ :=
  (diag.map fun p => ((states fs p.1).map fun s =>
      p.2 * observable column multiplet ((get fs s qn).getD 0)).sum).sum
    / (diag.map fun p => ((states fs p.1).map fun _ => p.2).sum).sum

end Verif.Spin.Spec
