import Mathlib.Algebra.Order.Field.Basic
import Mathlib.Algebra.BigOperators.Group.List.Basic
import Mathlib.Data.List.Basic
/-!
# Interpolation of tabulated functions (`tools/common/linint.hpp`, `tools/common/calc.hpp`)
-/

namespace Verif.Tools

variable {K : Type} [Field K] [LinearOrder K]

/-- A table of points. -/
abbrev Tab (K : Type) := List (K × K)

/-- `vec[i].first` and `vec[i].second`. -/
def Tab.x (t : Tab K) (i : ℕ) : K := (t.getD i (0, 0)).1
@[inherit_doc Tab.x] def Tab.f (t : Tab K) (i : ℕ) : K := (t.getD i (0, 0)).2

/-- The members of `LinIntBase` that change, `tools/common/linint.hpp:11-23`.  `index =
none` is `-1`. -/
structure LinState (K : Type) where
  index : Option ℕ
  x0 : K
  x1 : K
  f0 : K
  f1 : K
  deriv : K
  flag : Bool

/-- The constructor, `tools/common/linint.hpp:27-37`; `none` is the error for fewer than
two points. -/
def linNew (t : Tab K) : Option (LinState K) :=
  if t.length < 2 then none else some ⟨none, 0, 0, 0, 0, 0, false⟩

/-- The body of the three loops of `findindex`, `tools/common/linint.hpp:41-48,50-57,59-66`,
for the intervals in the order in which they are visited. -/
def scan (t : Tab K) (x : K) : List ℕ → LinState K → LinState K
  | [], s => s
  | i :: is, s =>
    let s' := { s with x0 := t.x i, x1 := t.x (i + 1) }
    if s'.x0 ≤ x ∧ x ≤ s'.x1 then { s' with index := some i } else scan t x is s'

/-- The intervals visited, `tools/common/linint.hpp:40-66`. -/
def visited (t : Tab K) (x : K) (s : LinState K) : List ℕ :=
  match s.index with
  | none => List.range (t.length - 1)
  | some i => if s.x1 ≤ x then List.range' (i + 1) (t.length - 1 - (i + 1)) else (List.range i).reverse

/-- `findindex`, `tools/common/linint.hpp:39-80`; `none` is the error policy. -/
def findindex (t : Tab K) (x : K) (s : LinState K) : Option (LinState K) :=
  let s := scan t x (visited t x s) s
  match s.index with
  | none => none
  | some i =>
    if i < t.length ∧ s.x0 ≤ x ∧ x ≤ s.x1 then
      let s := { s with f0 := t.f i, f1 := t.f (i + 1) }
      some { s with deriv := (s.f1 - s.f0) / (s.x1 - s.x0) }
    else none

/-- `LinIntBase::operator()`, `tools/common/linint.hpp:82-91`: the value and the new state. -/
def linEval (t : Tab K) (s : LinState K) (x : K) : Option (K × LinState K) :=
  if x ≤ t.x 0 then some (t.f 0, s)
  else if t.x (t.length - 1) ≤ x then some (t.f (t.length - 1), s)
  else if s.index = none ∨ ¬ (s.x0 ≤ x ∧ x < s.x1) then do
    let s ← findindex t x { s with flag := true }
    pure (s.f0 + s.deriv * (x - s.x0), s)
  else some (s.f0 + s.deriv * (x - s.x0), s)

/-- `IntLinIntBase::operator()`, `tools/common/linint.hpp:110-117`. -/
def intEval (t ti : Tab K) (s : LinState K) (x : K) : Option (K × LinState K) :=
  if x ≤ t.x 0 then some (ti.f 0 + t.f 0 * (x - t.x 0), s)
  else if t.x (t.length - 1) ≤ x then some (ti.f (ti.length - 1) + t.f (t.length - 1) * (x - t.x (t.length - 1)), s)
  else do
    let s ← if s.index = none ∨ ¬ (s.x0 ≤ x ∧ x < s.x1) then findindex t x s else some s
    let i ← s.index
    let dx := x - s.x0
    pure (ti.f i + dx * s.f0 + dx * dx * s.deriv / 2, s)

/-- The loop of `integrate_trapezoidal`, `tools/common/calc.hpp:15-22`: the points after
the first, given the previous point and the sum so far. -/
def trapezLoop : K × K → K → Tab K → Tab K × K
  | _, sum, [] => ([], sum)
  | (x0, y0), sum, (x1, y1) :: rest =>
    let sum := sum + (x1 - x0) * ((y1 + y0) / 2)
    let (r, total) := trapezLoop (x1, y1) sum rest
    ((x1, sum) :: r, total)

/-- `integrate_trapezoidal`, `tools/common/calc.hpp:9-25`: the cumulative integral and its
last value; `none` is the assertion. -/
def trapez (t : Tab K) : Option (Tab K × K) :=
  match t with
  | p :: q :: rest =>
    let (r, total) := trapezLoop p 0 (q :: rest)
    some ((p.1, 0) :: r, total)
  | _ => none

/-- The loop of `integrate_trapezoidal_ab`, `tools/common/calc.hpp:34-47`, after sorting. -/
def trapezAbLoop (b : K) : Tab K → K
  | (x0, y0) :: (x1, y1) :: rest =>
    (if x0 < b ∧ x1 ≤ b then x1 - x0 else if x0 < b ∧ b < x1 then b - x0 else 0) * ((y1 + y0) / 2)
      + trapezAbLoop b ((x1, y1) :: rest)
  | _ => 0

end Verif.Tools
