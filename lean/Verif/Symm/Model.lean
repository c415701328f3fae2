import Verif.Invar.Model
/-!
# Symmetry classes and the enumeration of subspaces
(`c++/symmetry.hpp`, `c++/symmetry/sym-*-impl.hpp`, `c++/core.hpp:45-75`)
-/

namespace Verif.Symm
open Verif.Invar

/-- `su2_triangle_inequality`, `c++/symmetry.hpp:32-34`. -/
def su2Triangle (a b c : Int) : Bool :=
  decide (((a - b).natAbs : Int) ≤ c - 1) && decide (((b - c).natAbs : Int) ≤ a - 1)
    && decide (((c - a).natAbs : Int) ≤ b - 1)

/-- `u1_equality`, `c++/symmetry.hpp:36`. -/
def u1Equality (q1 q2 q3 : Int) : Bool := q1 == q2 + q3

/-- `z2_equality`, `c++/symmetry.hpp:37`. -/
def z2Equality (p1 p2 p3 : Int) : Bool := p1 == p2 * p3

/-- `c3_equality`, `c++/symmetry.hpp:38`.  C++ `%` truncates: `Int.tmod`. -/
def c3Equality (p1 p2 p3 : Int) : Bool := p1 == (p2 + p3).tmod 3

/-- Which test a class applies to a quantum number in `triangle_inequality`.
`none`: the quantum number is not mentioned (or the method is not overridden,
`c++/symmetry.hpp:133`).  `su2T`: the test on `2T+1`, as in
`sym-QST-impl.hpp:24-27`. -/
inductive Test
  | none | u1 | su2 | su2T | z2 | c3
  deriving DecidableEq, Repr

/-- How a quantum number enters `mult`: not at all, as the multiplicity itself,
or as `2T+1` (`sym-QST-impl.hpp:22`). -/
inductive MultKind
  | one | val | twiceAddOne
  deriving DecidableEq, Repr

/-- The condition on a quantum number in `Invar_allowed`. -/
inductive AllowKind
  | any | pos | nonneg
  deriving DecidableEq, Repr

/-- One quantum number of a symmetry class.  The class methods
`triangle_inequality`, `mult` and `Invar_allowed` are conjunctions resp.
products of per-quantum-number expressions, so the class is described by what
each expression does with each quantum number. -/
structure Field where
  name : String
  type : QnType
  test : Test
  mult : MultKind
  allow : AllowKind
  deriving Repr

def evalTest : Test → Int → Int → Int → Bool
  | .none, _, _, _ => true
  | .u1, a, b, c => u1Equality a b c
  | .su2, a, b, c => su2Triangle a b c
  | .su2T, a, b, c => su2Triangle (2 * a + 1) (2 * b + 1) (2 * c + 1)
  | .z2, a, b, c => z2Equality a b c
  | .c3, a, b, c => c3Equality a b c

def evalMult : MultKind → Int → Int
  | .one, _ => 1
  | .val, a => a
  | .twiceAddOne, a => 2 * a + 1

def evalAllow : AllowKind → Int → Bool
  | .any, _ => true
  | .pos, a => decide (a > 0)
  | .nonneg, a => decide (a ≥ 0)

/-- `triangle_inequality` of a class.  `get` is positional here: its name lookup
and sanity checks succeed on well-formed labels. -/
def triangle : List Field → Label → Label → Label → Bool
  | f :: fs, a :: as, b :: bs, c :: cs => evalTest f.test a b c && triangle fs as bs cs
  | _, _, _, _ => true

/-- `mult` of a class (an `int` product converted to `size_t`; here `Int`). -/
def mult : List Field → Label → Int
  | f :: fs, a :: as => evalMult f.mult a * mult fs as
  | _, _ => 1

/-- `Invar_allowed` of a class. -/
def allowed : List Field → Label → Bool
  | f :: fs, a :: as => evalAllow f.allow a && allowed fs as
  | _, _ => true

def types (fs : List Field) : List QnType := fs.map Field.type

/-- A symmetry object after `load()` and `erase_first()`: its quantum numbers
and its table of pairs `(In[i], QN[i])`, `c++/symmetry.hpp:63-77`. -/
structure Symmetry where
  fields : List Field
  table : List (Label × Label)

namespace Symmetry
variable (S : Symmetry)

/-- `nr_combs`, `c++/symmetry.hpp:95-99`. -/
def combs : Nat := S.table.length

/-- `ancestor`, `c++/symmetry.hpp:88-94`. -/
def ancestor (I : Label) (i : Nat) : Option Label := do
  let r ← S.table[i]?
  combine (types S.fields) I r.1

/-- `ancestors`, `c++/symmetry.hpp:101-106`: `input[i].combine(I)`. -/
def ancestors (I : Label) : Option (List Label) :=
  S.table.mapM fun r => combine (types S.fields) r.1 I

/-- One step of the loop in `new_subspaces`, `c++/symmetry.hpp:109-112`. -/
def newSubspace1 (I : Label) (r : Label × Label) : Option Label := do
  let inv ← inverse (types S.fields) r.1
  combine (types S.fields) inv I

/-- `new_subspaces`, `c++/symmetry.hpp:107-114`. -/
def newSubspaces (I : Label) : Option (List Label) :=
  S.table.mapM (S.newSubspace1 I)

end Symmetry

/-- The part of `DiagInfo` used here: stored states per subspace label
(`std::map<Invar, Eigen>`), `c++/eigen.hpp:461`. -/
abbrev Sizes := List (Label × Nat)

/-- `DiagInfo::size_subspace`, `c++/eigen.hpp:533-538`: 0 when absent.  The bug
trap `val <= 1000000` is not modelled. -/
def sizeSubspace (diag : Sizes) (I : Label) : Nat := (diag.lookup I).getD 0

/-- The constructor of `SubspaceDimensions`, `c++/core.hpp:46-56` (with
`ignore_inequality = false`): one block per combination; its size is that of
the ancestor if it couples to `I`, else 0. -/
def subspaceDims (S : Symmetry) (diag : Sizes) (I : Label) : Option (List Nat) := do
  let anc ← S.ancestors I
  pure ((anc.zip S.table).map fun p =>
    if triangle S.fields I p.1 p.2.2 then sizeSubspace diag p.1 else 0)

/-- Insertion into `std::set<Invar>` (sorted, no duplicates). -/
def setInsert (x : Label) : List Label → List Label
  | [] => [x]
  | y :: ys => if lt x y then x :: y :: ys else if lt y x then y :: setInsert x ys else y :: ys

/-- The free function `new_subspaces`, `c++/core.hpp:66-75`: the set of all
allowed descendants of all subspaces present in `diag`. -/
def newSubspaceSet (S : Symmetry) (diag : Sizes) : Option (List Label) := do
  let all ← diag.mapM fun p => S.newSubspaces p.1
  pure ((all.flatten.filter (allowed S.fields)).foldl (fun s x => setInsert x s) [])

/-- The constructor of `SubspaceStructure`, `c++/core.hpp:59-63`. -/
def substruct (S : Symmetry) (diag : Sizes) : Option (List (Label × List Nat)) := do
  let ls ← newSubspaceSet S diag
  ls.mapM fun I => do
    let d ← subspaceDims S diag I
    pure (I, d)

end Verif.Symm
