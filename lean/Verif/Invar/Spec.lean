import Verif.Invar.Model
import Mathlib.Data.List.Forall2
/-!
# Specification vocabulary for quantum-number labels

Independent of how `combine` and `inverse` are computed.
-/

namespace Verif.Invar

/-- A value a quantum number of the given kind may take: any integer charge,
a parity `+1`/`-1`, a `C₃` label `0, 1, 2`. -/
def Valid1 : QnType → Int → Prop
  | .additive, _ => True
  | .multiplicative, a => a = 1 ∨ a = -1
  | .mod3, a => a = 0 ∨ a = 1 ∨ a = 2

instance : ∀ t a, Decidable (Valid1 t a)
  | .additive, _ => .isTrue trivial
  | .multiplicative, a => inferInstanceAs (Decidable (a = 1 ∨ a = -1))
  | .mod3, a => inferInstanceAs (Decidable (a = 0 ∨ a = 1 ∨ a = 2))

/-- Well-formed labels: one valid component for each declared type. -/
def Valid (ts : List QnType) (a : Label) : Prop := List.Forall₂ Valid1 ts a

/-- The neutral value of each kind. -/
def neutral1 : QnType → Int
  | .additive => 0
  | .multiplicative => 1
  | .mod3 => 0

/-- The neutral label. -/
def neutral (ts : List QnType) : Label := ts.map neutral1

/-- `c` is the composition of the values `a` and `b`: the sum of charges, the
product of parities, the residue `0..2` congruent to the sum of `C₃` labels. -/
def Compose1 : QnType → Int → Int → Int → Prop
  | .additive, a, b, c => c = a + b
  | .multiplicative, a, b, c => c = a * b
  | .mod3, a, b, c => 0 ≤ c ∧ c < 3 ∧ (3 : Int) ∣ (a + b - c)

instance : ∀ t a b c, Decidable (Compose1 t a b c)
  | .additive, a, b, c => inferInstanceAs (Decidable (c = a + b))
  | .multiplicative, a, b, c => inferInstanceAs (Decidable (c = a * b))
  | .mod3, a, b, c => inferInstanceAs (Decidable (0 ≤ c ∧ c < 3 ∧ (3 : Int) ∣ (a + b - c)))

/-- Componentwise composition of labels. -/
inductive Compose : List QnType → Label → Label → Label → Prop
  | nil : Compose [] [] [] []
  | cons {t ts a as b bs c cs} : Compose1 t a b c → Compose ts as bs cs →
      Compose (t :: ts) (a :: as) (b :: bs) (c :: cs)

end Verif.Invar
