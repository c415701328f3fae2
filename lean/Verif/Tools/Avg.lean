import Verif.Tools.LinInt
import Mathlib.Data.List.Sort
import Mathlib.Data.Prod.Lex
/-!
# Averaging tools: `tools/tdavg/tdavg.cc`, `tools/intavg/intavg.cc`

Numbers are elements of an ordered field (exact arithmetic).  The conversion of words to
numbers (`atof`) is not modelled: a data line is the list of its numbers.
-/

namespace Verif.Tools

variable {K : Type} [Field K] [LinearOrder K]

/-- A line of a data file: one that starts with `#`, or the list of its numbers. -/
inductive FileLine (K : Type)
  | comment
  | data (v : List K)
deriving DecidableEq

/-- `Line` and `multiVec`, `tools/tdavg/tdavg.cc:41-42`: a temperature and its columns. -/
abbrev TdRow (K : Type) := K × List K
abbrev TdBlock (K : Type) := List (TdRow K)

/-- The loops of `load`, `tools/tdavg/tdavg.cc:139-184`, with the global variable `columns`;
`none` is `exit(1)`. -/
def loadLoop : ℕ → List (TdBlock K) → TdBlock K → List (FileLine K) → Option (ℕ × List (TdBlock K))
  | cols, acc, cur, [] => some (cols, if cur.length = 0 then acc else acc ++ [cur])
  | cols, acc, cur, .comment :: ls => loadLoop cols (if cur.length = 0 then acc else acc ++ [cur]) [] ls
  | _, _, _, .data [] :: _ => none
  | cols, acc, cur, .data (T :: vals) :: ls =>
    if cols = 0 then loadLoop vals.length acc (cur ++ [(T, vals)]) ls
    else if vals.length ≠ cols then none
    else loadLoop cols acc (cur ++ [(T, vals)]) ls

/-- `load`, `tools/tdavg/tdavg.cc:133-185`. -/
def tdLoad (cols : ℕ) (ls : List (FileLine K)) : Option (ℕ × List (TdBlock K)) := loadLoop cols [] [] ls

/-- `read_files`, `tools/tdavg/tdavg.cc:188-204`: the number of columns, the data and the
reference data. -/
def readFiles (input : List (FileLine K)) (ref : Option (List (FileLine K))) :
    Option (ℕ × List (TdBlock K) × Option (List (TdBlock K))) := do
  let (cols, data) ← tdLoad 0 input
  if data.length = 0 then none
  else match ref with
    | none => some (cols, data, none)
    | some r => do
      let (cols, rdata) ← tdLoad cols r
      if data.length ≠ rdata.length then none else some (cols, data, some rdata)

/-- `EPS`, `tools/tdavg/tdavg.cc:290`, `tools/intavg/intavg.cc:210`. -/
def eps : K := 1 / 1000000

/-- `eq_approx`, `tools/tdavg/tdavg.cc:292`, `tools/intavg/intavg.cc:212`.  For `a = 0` the
quotient is infinite or not a number, and the comparison is false. -/
def eqApprox (a b : K) : Bool := if a = 0 then false else decide (|(a - b) / a| < eps)

/-- `std::unique`: an element is kept unless it is equivalent to the last kept one. -/
def uniqueLoop (p : K → K → Bool) : K → List K → List K
  | _, [] => []
  | last, y :: ys => if p last y then uniqueLoop p last ys else y :: uniqueLoop p y ys

@[inherit_doc uniqueLoop] def unique (p : K → K → Bool) : List K → List K
  | [] => []
  | x :: xs => x :: uniqueLoop p x xs

/-- `merge_meshes`, `tools/tdavg/tdavg.cc:294-304`, `tools/intavg/intavg.cc:214-226`, for the
lists of first columns. -/
def mergeMeshes (xs : List (List K)) : List K :=
  unique eqApprox (xs.flatten.insertionSort (· ≤ ·))

/-- The order of `std::pair`. -/
def pairLe (p q : K × K) : Prop := p.1 < q.1 ∨ (p.1 = q.1 ∧ p.2 ≤ q.2)

instance : DecidableRel (pairLe (K := K)) := fun p q =>
  inferInstanceAs (Decidable (p.1 < q.1 ∨ (p.1 = q.1 ∧ p.2 ≤ q.2)))

/-- The table of column `j` of one block, `tools/tdavg/tdavg.cc:314-319`; `none` is an
access outside the row. -/
def colTab (b : TdBlock K) (j : ℕ) : Option (Tab K) := do
  let v ← b.mapM fun r => (r.2[j]?).map fun y => (r.1, y)
  pure (v.insertionSort pairLe)

/-- A `LinInt` object of `tdavg` or `intavg`: `tools/tdavg/tdavg.cc:207-288`,
`tools/intavg/intavg.cc:122-208`.  The class has the same code as the one of
`tools/common/linint.hpp` except for the test for two points. -/
structure Interp (K : Type) where
  tab : Tab K
  st : LinState K

/-- The constructor, `tools/tdavg/tdavg.cc:220-227`, `tools/intavg/intavg.cc:136-144`. -/
def Interp.new (t : Tab K) : Interp K := ⟨t, ⟨none, 0, 0, 0, 0, 0, false⟩⟩

/-- `operator()`, `tools/tdavg/tdavg.cc:279-288`, `tools/intavg/intavg.cc:197-208`. -/
def Interp.eval (f : Interp K) (x : K) : Option (K × Interp K) := do
  let (v, s) ← linEval f.tab f.st x
  pure (v, { f with st := s })

/-- The inner loop over the data sets, `tools/tdavg/tdavg.cc:333-336`: every data set with
its reference. -/
def sumLoop (nz T : K) : K → List (Interp K × Option (Interp K)) →
    Option (K × List (Interp K × Option (Interp K)))
  | acc, [] => some (acc, [])
  | acc, (f, none) :: rest => do
    let (v, f') ← f.eval T
    let (tot, rest') ← sumLoop nz T (acc + v / nz) rest
    pure (tot, (f', none) :: rest')
  | acc, (f, some r) :: rest => do
    let (v, f') ← f.eval T
    let (w, r') ← r.eval T
    let (tot, rest') ← sumLoop nz T (acc + v / nz - w / nz) rest
    pure (tot, (f', some r') :: rest')

/-- The loop over the columns, `tools/tdavg/tdavg.cc:332-337`. -/
def colLoop (nz T : K) : List (List (Interp K × Option (Interp K))) →
    Option (List K × List (List (Interp K × Option (Interp K))))
  | [] => some ([], [])
  | c :: cs => do
    let (v, c') ← sumLoop nz T 0 c
    let (vs, cs') ← colLoop nz T cs
    pure (v :: vs, c' :: cs')

/-- The loop over the mesh, `avg`, `tools/tdavg/tdavg.cc:326-342`. -/
def avgLoop (nz : K) : List K → List (List (Interp K × Option (Interp K))) → Option (List (TdRow K))
  | [], _ => some []
  | T :: mesh, cs => do
    let (row, cs') ← colLoop nz T cs
    let rest ← avgLoop nz mesh cs'
    pure ((T, row) :: rest)

/-- `interpolate` for the input and the reference, `tools/tdavg/tdavg.cc:310-324,372-373`,
column by column. -/
def interpolators (cols : ℕ) (data : List (TdBlock K)) (ref : Option (List (TdBlock K))) :
    Option (List (List (Interp K × Option (Interp K)))) :=
  (List.range cols).mapM fun k =>
    match ref with
    | none => data.mapM fun b => (colTab b k).map fun t => (Interp.new t, none)
    | some r => (data.zip r).mapM fun p => do
        let t ← colTab p.1 k
        let u ← colTab p.2 k
        pure (Interp.new t, some (Interp.new u))

/-- The computation of `main`, `tools/tdavg/tdavg.cc:369-374`: the rows of the output. -/
def tdavg (cols : ℕ) (data : List (TdBlock K)) (ref : Option (List (TdBlock K))) : Option (List (TdRow K)) := do
  let cs ← interpolators cols data ref
  avgLoop (data.length : K) (mergeMeshes (data.map fun b => b.map Prod.fst)) cs

/-- `avg` of `intavg`, the loop over the data sets, `tools/intavg/intavg.cc:241`. -/
def intSum (x : K) : K → List (Interp K) → Option (K × List (Interp K))
  | acc, [] => some (acc, [])
  | acc, f :: rest => do
    let (v, f') ← f.eval x
    let (tot, rest') ← intSum x (acc + v) rest
    pure (tot, f' :: rest')

/-- The loop over the mesh, `tools/intavg/intavg.cc:234-248`. -/
def intLoop (nz : K) : List K → List (Interp K) → Option (List (K × K))
  | [], _ => some []
  | x :: mesh, fs => do
    let (sum, fs') ← intSum x 0 fs
    let rest ← intLoop nz mesh fs'
    pure ((x, sum / nz) :: rest)

/-- The computation of `main`, `tools/intavg/intavg.cc:265-275`, with the test for two points
of `load` (`tools/intavg/intavg.cc:105-108`). -/
def intavg (data : List (Tab K)) : Option (List (K × K)) :=
  if data.all fun t => decide (2 ≤ t.length) then
    intLoop (data.length : K) (mergeMeshes (data.map fun t => t.map Prod.fst)) (data.map Interp.new)
  else none

end Verif.Tools
