import Verif.Resample.Model
/-!
# What resampling means
-/

namespace Verif.Resample
open Verif.Text (Str)
open Verif.DataFile (Dec Lit)

variable {K : Type}

/-- At least five points with different abscissae. -/
def Data (im : List (K × K)) : Prop := 5 ≤ im.length ∧ (im.map Prod.fst).Nodup

/-- The contract of the spline: it passes through the points, has a value everywhere between them, and none outside. -/
structure Interp [LinearOrder K] (S : Spline K) : Prop where
  node : ∀ l, 5 ≤ l.length → (l.map Prod.fst).Pairwise (· < ·) → ∀ p ∈ l, S l p.1 = some p.2
  inside : ∀ l, 5 ≤ l.length → (l.map Prod.fst).Pairwise (· < ·) → ∀ x, (∃ p ∈ l, p.1 ≤ x) → (∃ q ∈ l, x ≤ q.1) → S l x ≠ none
  outside : ∀ l, 5 ≤ l.length → (l.map Prod.fst).Pairwise (· < ·) → ∀ x, (∀ p ∈ l, x < p.1) ∨ (∀ p ∈ l, p.1 < x) → S l x = none

/-- The value `v` is right for abscissa `x`, given the table `im` and what to use outside. -/
structure Right [LinearOrder K] (im : List (K × K)) (extra : Bool) (below above : Option K) (x : K) (v : Option K) : Prop where
  /-- at a point of the table, its value -/
  node : ∀ y, (x, y) ∈ im → v = some y
  /-- between the points, a number -/
  inside : (∃ p ∈ im, p.1 ≤ x) → (∃ q ∈ im, x ≤ q.1) → v ≠ none
  /-- below, the given number or the value at the lowest point, if extrapolation is selected -/
  low : ∀ p ∈ im, (∀ q ∈ im, p.1 ≤ q.1) → x < p.1 → v = if extra = true then some (below.getD p.2) else none
  /-- above, the given number or the value at the highest point -/
  high : ∀ p ∈ im, (∀ q ∈ im, q.1 ≤ p.1) → p.1 < x → v = if extra = true then some (above.getD p.2) else none

/-- Numbers are printed so that they can be read, and exactly for these. -/
def Fmt.Prints (F : Fmt K) (prec : Int) (x : K) : Prop := (F.out prec x).OK ∧ F.val (F.out prec x).val = x

end Verif.Resample
