import Verif.Symm.Classes
import Verif.Invar.Spec
import Mathlib.Algebra.Order.Ring.Abs
import Mathlib.Algebra.Order.Ring.Int
/-!
# Specification vocabulary for symmetries
-/

namespace Verif.Symm
open Verif.Invar

/-- A value of a quantum number that labels an actual multiplet: spin and
isospin multiplicities are positive, an angular momentum is non-negative, a
parity is `±1`, a `C₃` label is `0..2`, a charge is arbitrary. -/
def Physical1 (f : Field) (x : Int) : Prop :=
  Valid1 f.type x ∧ (f.test = .su2 → 0 < x) ∧ (f.test = .su2T → 0 ≤ x)

/-- A label of an actual multiplet. -/
def Physical (fs : List Field) (I : Label) : Prop := List.Forall₂ Physical1 fs I

/-- The coupling rule for spins, in terms of spins rather than multiplicities:
`S = (mult - 1)/2` are non-negative and `|S₁ - S₂| ≤ S₃ ≤ S₁ + S₂`.
Stated for `2S = mult - 1` to stay in the integers. -/
def SpinsCouple (m1 m2 m3 : Int) : Prop :=
  let s1 := m1 - 1; let s2 := m2 - 1; let s3 := m3 - 1
  0 ≤ s1 ∧ 0 ≤ s2 ∧ 0 ≤ s3 ∧ |s1 - s2| ≤ s3 ∧ s3 ≤ s1 + s2

/-- The total number of states, multiplicities included. -/
def stateCount (fs : List Field) (diag : Sizes) : Int :=
  (diag.map fun p => mult fs p.1 * (p.2 : Int)).sum

/-- When three values of one quantum number couple, decided by what the quantum
number is (its declared kind and name), not by what the class tests. -/
def Couples1 (name : String) (t : QnType) (a b c : Int) : Prop :=
  match t with
  | .multiplicative => a = b * c
  | .mod3 => (b + c - a) % 3 = 0 ∧ 0 ≤ a ∧ a ≤ 2
  | .additive =>
    if name ∈ ["SS", "II", "II1", "II2", "JJ"] then SpinsCouple a b c
    else if name = "T" then SpinsCouple (2 * a + 1) (2 * b + 1) (2 * c + 1)
    else a = b + c

/-- Three labels couple when each of their quantum numbers does. -/
def Couples (fs : List Field) (a b c : Label) : Prop :=
  ∀ (i : Nat) (f : Field) (x y z : Int), fs[i]? = some f → a[i]? = some x → b[i]? = some y → c[i]? = some z →
    Couples1 f.name f.type x y z

end Verif.Symm
