import Verif.Cmd.Spec
import Verif.Zrun.Model
/-!
# Raw spectra of several calculations, and their average
-/

namespace Verif.Zrun
open Verif.Text

variable {K : Type} [Field K] [LinearOrder K]

/-- The calculations `1`, …, `N` have left raw spectra of the given name, each in its directory; `-o` with a single calculation means the file itself. A spectrum is a
list of rows with the frequency and `w` weights; the file holds these numbers and nothing else. -/
def Stored (fs : Files (Bin K)) (one : Bool) (N : Nat) (name : Str) (w : Nat) (rows : Nat → List (List K)) : Prop :=
  ∀ i, 1 ≤ i → i ≤ N → (∀ r ∈ rows i, r.length = 1 + w) ∧
    fs (if one = true ∧ N = 1 then name else natStr i ++ '/' :: name) = some ⟨(rows i).flatten, 0⟩

/-- Sum over all rows of all calculations. -/
def sumRows (N : Nat) (rows : Nat → List (List K)) (f : List K → K) : K := ((List.range N).map fun i : Nat => ((rows (i + 1)).map f).sum).sum

/-- Frequency and weight in a row. -/
def freq (r : List K) : K := r.getD 0 0
def weight (col : Nat) (r : List K) : K := r.getD col 0

/-- What `specmoments` does not leave out. -/
def Kept (set : Cmd.MomSet) (x : K) : Prop :=
  (set.low : K) ≤ |x| ∧ (∀ h : ℚ, set.high = some h → |x| ≤ (h : K)) ∧ (set.posonly = true → 0 ≤ x) ∧ (set.negonly = true → x ≤ 0)

end Verif.Zrun
