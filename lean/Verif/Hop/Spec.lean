import Verif.Hop.Tables
import Verif.Symm.Spec
/-!
# Specification vocabulary for the Hamiltonian tables
-/

namespace Verif.Hop
open Verif.Invar Verif.Symm

/-- The label `In` of the site combination with 1-based index `i`: the label of
the ancestor relative to the new subspace. -/
def Ham.inLabel (H : Ham) (i : Nat) : Option Label :=
  if i = 0 then none else (H.builtin.sym.table[i - 1]?).map Prod.fst

/-- A 1-based index of a site combination of the class. -/
def Ham.Index (H : Ham) (i : Nat) : Prop := 1 ≤ i ∧ i ≤ H.builtin.sym.combs

instance (H : Ham) (i : Nat) : Decidable (H.Index i) := inferInstanceAs (Decidable (_ ∧ _))

/-- The labels of the combinations `i` and `j` differ by the electron operator
that is stored in block `b`. -/
def Ham.ConnectedBy (H : Ham) (b : FBlock) (i j : Nat) : Prop :=
  ∃ x y, H.inLabel i = some x ∧ H.inLabel j = some y ∧
    combine (types H.builtin.sym.fields) b.shift y = some x

/-- Twice the occupation of combination `i` in one occupation list. -/
def OccGroup.occ (g : OccGroup) (i : Nat) : Int := ((g.entries.lookup i).getD 0 : Nat)

/-- Twice the total occupation of combination `i`: sum over channels and spins. -/
def HamTable.total (T : HamTable) (i : Nat) : Int := (T.occupations.map (·.occ i)).sum

/-- Twice the change of every listed occupation (channel, spin) in going from
combination `i` to `j`. -/
def HamTable.change (T : HamTable) (i j : Nat) : List Int :=
  T.occupations.map fun g => g.occ j - g.occ i

/-- Entries that add an electron to the site while one is added to the chain, or
remove one while one is removed. -/
def Macro.isAnomalous : Macro → Bool
  | .anomalous => true
  | _ => false

/-- Entries whose stored operator annihilates an electron of the chain. -/
def Macro.annihilates : Macro → Bool
  | .anUp | .anDo => true
  | _ => false

/-- Entries that are meant to change the channel or the spin of the electron. -/
def Macro.isMixing : Macro → Bool
  | .mix | .updo | .doup => true
  | _ => false

/-- The classes in which `opch[ch][2]`, `opch[ch][3]` are annihilation operators
(`c++/params.hpp:577-578`, `CR/AN`). -/
def FBlock.annihilates (b : FBlock) : Bool := decide (2 ≤ b.fnr)

end Verif.Hop
