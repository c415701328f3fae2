import Verif.Invar.Model
/-!
# Block structure of a new subspace and the task list (`c++/subspaces.hpp`)

`none` stands for a failed `my_assert`, which throws (`c++/portabil.hpp:55-65`).
A 1-based accessor called with 0 computes `size_t(0) - 1`, which is larger than
any number of blocks, so the assertion of the 0-based accessor fails: `none`.
Simplification: `size_t`/`int` overflow of sums is not modelled (`total`
accumulates in `int`).
-/

namespace Verif.Subspaces
open Verif.Invar

/-- `SubspaceDimensions::dims` (`c++/subspaces.hpp:22`). -/
abbrev Dims := List Nat

/-- `rmax`, `operator[]` (`c++/subspaces.hpp:30-34`). -/
def rmax (d : Dims) (i : Nat) : Option Nat := d[i]?

/-- `exists` (`c++/subspaces.hpp:35-38`). -/
def exists' (d : Dims) (i : Nat) : Option Bool := do
  let r ← d[i]?
  pure (decide (r > 0))

/-- `offset` (`c++/subspaces.hpp:39-42`). -/
def offset (d : Dims) (i : Nat) : Option Nat :=
  if i < d.length then some ((d.take i).foldl (· + ·) 0) else none

/-- Shift of a 1-based index (`i-1` in `size_t`). -/
def shift1 (i1 : Nat) : Option Nat := if i1 = 0 then none else some (i1 - 1)

/-- `chunk` (`c++/subspaces.hpp:43-45`): offset and length, 1-based. -/
def chunk (d : Dims) (i1 : Nat) : Option (Nat × Nat) := do
  let i ← shift1 i1
  pure (← offset d i, ← rmax d i)

/-- `part` (`c++/subspaces.hpp:52-54`): begin and end. -/
def part (d : Dims) (i : Nat) : Option (Nat × Nat) := do
  pure (← offset d i, (← offset d i) + (← rmax d i))

/-- `part_mma` (`c++/subspaces.hpp:55-57`). -/
def partMma (d : Dims) (i1 : Nat) : Option (Nat × Nat) := do part d (← shift1 i1)

/-- `view` (`c++/subspaces.hpp:46-48`): the indices of the block, in order. -/
def view (d : Dims) (i : Nat) : Option (List Nat) := do
  let o ← offset d i
  let r ← rmax d i
  pure ((List.range r).map (o + ·))

/-- `view_mma` (`c++/subspaces.hpp:49-51`). -/
def viewMma (d : Dims) (i1 : Nat) : Option (List Nat) := do view d (← shift1 i1)

/-- `total` (`c++/subspaces.hpp:58`). -/
def total (d : Dims) : Nat := d.foldl (· + ·) 0

/-- `offdiag_contributes` (`c++/subspaces.hpp:60-64`). -/
def offdiagContributes (d : Dims) (i1 j1 : Nat) : Option Bool :=
  if 1 ≤ i1 ∧ i1 ≤ d.length ∧ 1 ≤ j1 ∧ j1 ≤ d.length then
    if i1 ≠ j1 then do
      let a ← exists' d (i1 - 1)
      let b ← exists' d (j1 - 1)
      pure (a && b)
    else none
  else none

/-- The diagonal part of `hamiltonian` (`c++/core.hpp:88-93`): starting from
the zero matrix, for every block `i` and every `(n, r)` of the enumerated view,
`h(r,r) = value i n`. The diagonal is a list of `total` entries. -/
def fillDiagonal {α} (d : Dims) (zero : α) (value : Nat → Nat → α) : List α :=
  (List.range d.length).foldl (fun h i =>
    match view d i with
    | none => h
    | some rs => (rs.zipIdx).foldl (fun h rn => h.set rn.1 (value i rn.2)) h)
    (List.replicate (total d) zero)

/-- The comparison `std::greater<>` on `std::pair<size_t, Invar>`
(`c++/subspaces.hpp:128`): lexicographic, labels by `Invar::operator<`
(`c++/invar.hpp:79-81`). `greater p q` is `q < p`. -/
def greater (p q : Nat × Label) : Bool :=
  decide (q.1 < p.1) || (decide (q.1 = p.1) && lt q.2 p.2)

/-- Insertion into a list sorted by `greater`. -/
def insertTask (x : Nat × Label) : List (Nat × Label) → List (Nat × Label)
  | [] => [x]
  | y :: ys => if greater y x then y :: insertTask x ys else x :: y :: ys

/-- Simplification: `ranges::sort` is modelled by insertion sort; any correct
sorting algorithm gives the same list because `greater` is a strict total order
on pairs with different labels. -/
def sortTasks (l : List (Nat × Label)) : List (Nat × Label) := l.foldr insertTask []

/-- `TaskList::TaskList` (`c++/subspaces.hpp:124-132`): `tasks_with_sizes`. The
structure is a `std::map`, here the list of its entries. -/
def tasksWithSizes (st : List (Label × Dims)) : List (Nat × Label) :=
  sortTasks ((st.filter fun e => decide (total e.2 ≠ 0)).map fun e => (total e.2, e.1))

/-- `TaskList::get` (`c++/subspaces.hpp:131,133`). -/
def tasks (st : List (Label × Dims)) : List Label := (tasksWithSizes st).map Prod.snd

end Verif.Subspaces
