import Mathlib.Algebra.Order.Field.Basic
import Mathlib.Algebra.BigOperators.Group.List.Basic
import Mathlib.Data.List.Basic
/-!
# Averaging, filtering and accumulating raw spectra

`tools/binavg/binavg.hpp`, `tools/broaden/broaden.hpp`, `tools/mats/mats.cc`,
`tools/specmoments/specmoments.cc`.  Frequencies and weights are elements of an ordered
field; exact arithmetic, no NaN.
-/

namespace Verif.Tools

variable {K : Type} [Field K] [LinearOrder K]

/-- `load`: the content of a binary file as rows of `1 + nrcol` numbers; `none` when the file
does not hold a whole number of rows.  `tools/binavg/binavg.hpp:89-126`,
`tools/broaden/broaden.hpp:134-171`.  The file is given as its list of `double`s. -/
def loadRows (nrcol : ℕ) (buf : List K) : Option (List K) :=
  if buf.length % (1 + nrcol) = 0 then some buf else none

/-- The `(frequency, value)` pairs visited for one file: row `l`, column `col`,
`tools/binavg/binavg.hpp:140-143`, `tools/broaden/broaden.hpp:357-359`. -/
def points (nrcol col : ℕ) (buf : List K) : List (K × K) :=
  (List.range (buf.length / (1 + nrcol))).map fun l : ℕ => (buf.getD ((1 + nrcol) * l) 0, buf.getD ((1 + nrcol) * l + col) 0)

/-- `spec.find(freq)`, then insertion or addition: the `std::map` as a list of pairs ordered
by key, `tools/binavg/binavg.hpp:144-149`. -/
def addPoint (w v : K) : List (K × K) → List (K × K)
  | [] => [(w, v)]
  | (x, y) :: m => if w < x then (w, v) :: (x, y) :: m else if w = x then (x, y + v) :: m else (x, y) :: addPoint w v m

/-- The merging loops over all files, `tools/binavg/binavg.hpp:139-151`. -/
def collect (files : List (List (K × K))) : List (K × K) :=
  files.foldl (fun m f => f.foldl (fun m p => addPoint p.1 p.2 m) m) []

/-- `merge`, `tools/binavg/binavg.hpp:136-165`, `tools/broaden/broaden.hpp:352-376`,
`tools/mats/mats.cc:167-197`, `tools/specmoments/specmoments.cc:183-214`: the vectors `vfreq`,
`vspec` as a list of pairs. -/
def mergeFiles (files : List (List (K × K))) : List (K × K) :=
  (collect files).map fun p => (p.1, p.2 / files.length)

/-- `filter` of `broaden`, `tools/broaden/broaden.hpp:378-387`. -/
def filterSpec (low high : K) (keepPos keepNeg : Bool) (s : List (K × K)) : List (K × K) :=
  (s.map fun p =>
    let v := if |p.1| < low then 0 else p.2
    let v := if high < |p.1| then 0 else v
    (p.1, v)).map fun p =>
    let v := if !keepPos ∧ 0 ≤ p.1 then 0 else p.2
    let v := if !keepNeg ∧ p.1 < 0 then 0 else v
    (p.1, v)

/-- The inner `while` of `calc_cumulative`, `tools/broaden/broaden.hpp:508-511`: consume the
peaks below `max`. -/
def advance (mx : K) : List (K × K) → K → List (K × K) × K
  | [], sum => ([], sum)
  | (w, v) :: rest, sum => if w < mx then advance mx rest (sum + v) else ((w, v) :: rest, sum)

/-- `calc_cumulative`, `tools/broaden/broaden.hpp:500-515`: one value per mesh point. -/
def cumulative : List K → List (K × K) → K → List K
  | [], _, _ => []
  | x :: mesh, s, sum => (advance x s sum).2 :: cumulative mesh (advance x s sum).1 (advance x s sum).2

/-- The raw moments of `specmoments`, `tools/specmoments/specmoments.cc:226-235`. -/
def moment (k : ℕ) (s : List (K × K)) : K := (s.map fun p => p.2 * p.1 ^ k).sum

/-- The central moments, `tools/specmoments/specmoments.cc:252-280`; `none` is the error for
vanishing total weight. -/
def centralMoment (k : ℕ) (s : List (K × K)) : Option K :=
  if moment 0 s = 0 then none
  else
    let mean := moment 1 s / moment 0 s
    some ((s.map fun p => p.2 * (p.1 - mean) ^ k).sum / moment 0 s)

end Verif.Tools
