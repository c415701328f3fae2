/-!
# Quantum-number labels (`c++/invar.hpp`)

`Invar::data` is a `std::vector<int>`; the model is `List Int`.
`Invar::qntype` (a static, filled by `initInvar`, `c++/invar.hpp:162-174`) is an
explicit argument, and `Invar::invdim` is its length.

A failed `my_assert` throws (`c++/portabil.hpp:55-65`) and an access beyond the
end of `data` is undefined behaviour: both are `none`.
-/

namespace Verif.Invar

/-- The three kinds of quantum number, `c++/invar.hpp:29-31`. -/
inductive QnType
  | additive
  | multiplicative
  | mod3
  deriving DecidableEq, Repr

/-- `Invar::data`, `c++/invar.hpp:44-45`. -/
abbrev Label := List Int

/-- One iteration of the loop in `Invar::combine`, `c++/invar.hpp:90-106`.
`a` is the object's own component, `b` the argument's.  Only the object's own
component is checked.  C++ `%` truncates towards zero: `Int.tmod`. -/
def combine1 : QnType → Int → Int → Option Int
  | .additive, a, b => some (a + b)
  | .multiplicative, a, b => if a = 1 ∨ a = -1 then some (a * b) else none
  | .mod3, a, b => if 0 ≤ a ∧ a ≤ 2 then some ((a + b).tmod 3) else none

/-- `Invar::combine`, `c++/invar.hpp:89-107`.  The loop runs over the `invdim`
declared components; further components (there are none in practice) are left
alone.  A missing component of the object is undefined behaviour, a missing
component of the argument fails the assertion in `getqn`
(`c++/invar.hpp:83-86`). -/
def combine : List QnType → Label → Label → Option Label
  | [], a, _ => some a
  | t :: ts, a :: as, b :: bs => do
      let c ← combine1 t a b
      let cs ← combine ts as bs
      pure (c :: cs)
  | _ :: _, [], _ => none
  | _ :: _, _ :: _, [] => none

/-- One iteration of the loop in `Invar::inverse`, `c++/invar.hpp:111-127`. -/
def inverse1 : QnType → Int → Option Int
  | .additive, a => some (-a)
  | .multiplicative, a => if a = 1 ∨ a = -1 then some a else none
  | .mod3, a =>
      if 0 ≤ a ∧ a ≤ 2 then
        let d := (3 - a).tmod 3
        if 0 ≤ d ∧ d ≤ 2 then some d else none
      else none

/-- `Invar::inverse`, `c++/invar.hpp:110-128`. -/
def inverse : List QnType → Label → Option Label
  | [], a => some a
  | t :: ts, a :: as => do
      let c ← inverse1 t a
      let cs ← inverse ts as
      pure (c :: cs)
  | _ :: _, [] => none

/-- `Invar::names` (`c++/invar.hpp:49`) as filled by `initInvar`
(`c++/invar.hpp:162-174`): position of a name; a later duplicate would
overwrite an earlier one, so the last position counts. -/
def indexOfName (names : List String) (which : String) : Option Nat :=
  (names.zipIdx.filter (fun p => p.1 == which)).getLast?.map Prod.snd

/-- The sanity check in `Invar::get`, `c++/invar.hpp:136-140`. -/
def sane : QnType → Int → Bool
  | .additive, _ => true
  | .multiplicative, f => f == 1 || f == -1
  | .mod3, f => decide (0 ≤ f) && decide (f ≤ 2)

/-- `Invar::get`, `c++/invar.hpp:129-142`.  `fields` are the declared names and
types. -/
def get (fields : List (String × QnType)) (I : Label) (which : String) : Option Int := do
  let i ← indexOfName (fields.map Prod.fst) which
  let t ← (fields.map Prod.snd)[i]?
  let f ← I[i]?
  if sane t f then some f else none

/-- The constructor `Invar(const InvType &d)`, `c++/invar.hpp:54-57`.  The
member `data` has no default member initialiser and the constructor has no
initialiser list, so `data` is an empty vector when the assertion
`d.size() == data.size()` is evaluated. -/
def ofVector (d : Label) : Option Label :=
  let data : Label := []
  if d.length = data.length then some d else none

/-- `Invar::InvertMyParity`, `c++/invar.hpp:143-149`. -/
def invertMyParity (names : List String) (I : Label) : Option Label := do
  let i ← indexOfName names "P"
  let x ← I[i]?
  pure (I.set i (-x))

/-- `Invar::InvertParity`, `c++/invar.hpp:150-154`: copies `data` through the
vector constructor, then inverts in place. -/
def invertParity (names : List String) (I : Label) : Option Label := do
  let J ← ofVector I
  invertMyParity names J

/-- `Invar::operator<`, `c++/invar.hpp:81`: lexicographic order of the vectors
(`std::vector::operator<`). -/
def lt : Label → Label → Bool
  | [], [] => false
  | [], _ :: _ => true
  | _ :: _, [] => false
  | a :: as, b :: bs => if a < b then true else if b < a then false else lt as bs

end Verif.Invar
