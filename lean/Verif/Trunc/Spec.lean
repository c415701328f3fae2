import Mathlib.Algebra.Order.Group.Defs
import Mathlib.Data.List.Count
import Verif.Trunc.Model
/-!
# Specification vocabulary for truncation, independent of sorting
-/

namespace Verif.Trunc
variable {K : Type} [AddCommGroup K] [LinearOrder K]

/-- `c` is the `n`-th smallest element of the multiset `l` (`n ≥ 1`): fewer
than `n` elements lie below `c` and at least `n` do not exceed it. -/
def IsNthSmallest (n : Nat) (l : List K) (c : K) : Prop :=
  l.countP (fun x => decide (x < c)) < n ∧ n ≤ l.countP (fun x => decide (x ≤ c))

/-- The number of states requested by the parameters. -/
def requested (s : Settings K) (all : List K) : Nat :=
  if s.keepenergy ≤ 0 then s.keep
  else max s.keepmin (min (1 + all.countP fun e => decide (e ≤ s.keepenergy)) s.keep)

/-- The gap above the `j`-th smallest element is at most `g`. -/
def GapAtMost (l : List K) (j : Nat) (g : K) : Prop :=
  ∀ a b, IsNthSmallest j l a → IsNthSmallest (j + 1) l b → b - a ≤ g

end Verif.Trunc
