import Mathlib.Data.Nat.Digits.Defs
import Verif.Invar.Model
/-!
# Text: white space, decimal numbers, labels, file names

Strings are lists of characters (the code works with bytes; only ASCII
characters are compared).
-/

namespace Verif.Text
open Verif.Invar (Label)

abbrev Str := List Char

/-- `std::isspace` in the "C" locale. -/
def isSpace (c : Char) : Bool :=
  c = ' ' || c = '\t' || c = '\n' || c = '\x0b' || c = '\x0c' || c = '\r'

/-- `strip_leading_whitespace` (`c++/basicio.hpp:28-31`). -/
def stripLeading (s : Str) : Str := s.dropWhile isSpace

/-- `strip_trailing_whitespace` (`c++/basicio.hpp:33-41`): the loop that erases
the last character while it is white space, on the reversed string. -/
def stripTrailing (s : Str) : Str := (s.reverse.dropWhile isSpace).reverse

/-- `strip_whitespace` (`c++/basicio.hpp:43-45`). -/
def strip (s : Str) : Str := stripTrailing (stripLeading s)

/-- `is_blank_or_comment_line` (`c++/basicio.hpp:140-143`). -/
def blankOrComment (s : Str) : Bool :=
  match s.dropWhile isSpace with
  | [] => true
  | c :: _ => c = '#'

/-! ## Numbers -/

/-- The character of a decimal digit. -/
def digitChar (d : Nat) : Char := Char.ofNat (48 + d)

def isDigit (c : Char) : Bool := 48 ≤ c.toNat && c.toNat ≤ 57

/-- `std::to_string` and stream output of an unsigned number. -/
def natStr (n : Nat) : Str := if n = 0 then ['0'] else (Nat.digits 10 n).reverse.map digitChar

/-- `std::to_string` and stream output of an `int`. -/
def intStr (i : Int) : Str := if i < 0 then '-' :: natStr i.natAbs else natStr i.natAbs

/-- Value of a list of digit characters, most significant first. -/
def natValue (s : Str) : Nat := s.foldl (fun n c => 10 * n + (c.toNat - 48)) 0

/-- Range of `int`. -/
def inInt (i : Int) : Prop := -2147483648 ≤ i ∧ i ≤ 2147483647

instance (i : Int) : Decidable (inInt i) := inferInstanceAs (Decidable (_ ∧ _))

/-- An optional sign at the beginning of a number. -/
def readSign : Str → Bool × Str
  | '-' :: u => (true, u)
  | '+' :: u => (false, u)
  | u => (false, u)

/-- Stream extraction of an `int`: skip white space, an optional sign, then the
longest run of digits; it fails if there is no digit or the value is out of
range. Returns the number and the rest of the stream. -/
def readInt (s : Str) : Option (Int × Str) :=
  let t := readSign (s.dropWhile isSpace)
  let ds := t.2.takeWhile isDigit
  let r := t.2.dropWhile isDigit
  let v : Int := if t.1 then -(natValue ds : Int) else (natValue ds : Int)
  if ds = [] then none else if inInt v then some (v, r) else none

/-! ## Labels -/

/-- `Invar::insertor` (`c++/invar.hpp:61-64`): components separated by `delim`,
none after the last. `operator<<` and `str()` use `" "`, `name()` uses `"_"`
(65-67). -/
def insertor (delim : Str) : Label → Str
  | [] => []
  | [a] => intStr a
  | a :: l => intStr a ++ delim ++ insertor delim l

def str (l : Label) : Str := insertor [' '] l
def name (l : Label) : Str := insertor ['_'] l

/-- `Invar::extractor` (`c++/invar.hpp:68-77`) into a label of `n` components;
`none` when it throws. -/
def extractor : Nat → Str → Option (Label × Str)
  | 0, s => some ([], s)
  | n + 1, s =>
    match readInt s with
    | none => none
    | some (a, r) =>
      match extractor n r with
      | none => none
      | some (l, r') => some (a :: l, r')

/-! ## Memory figures -/

/-- Body of the loop of `format_memory_usage` (`c++/time_mem.hpp:18-27`) over
the remaining digits; `first` is `i == 0`. The number of remaining digits is
`digits.size() - i`. -/
def groupDigits (first : Bool) : Str → Str
  | [] => []
  | d :: ds => (if !first && (d :: ds).length % 3 == 0 then ['\''] else []) ++ d :: groupDigits false ds

/-- `format_memory_usage` (`c++/time_mem.hpp:18-27`). -/
def formatMemory (n : Nat) : Str := groupDigits true (natStr n)

/-! ## File names -/

/-- `Workdir::unitaryfn` and `Workdir::rhofn` (`c++/workdir.hpp:53-58`):
`workdir + "/" + filename + std::to_string(N)`. -/
def storeName (dir kind : Str) (n : Nat) : Str := dir ++ '/' :: (kind ++ natStr n)

/-- The names in use: default argument of `unitaryfn` (`c++/workdir.hpp:56`),
`fn_rho` and `fn_rhoFDM` (`c++/params.hpp:35-36`). -/
def kinds : List Str := ["unitary".toList, "rho".toList, "rhofdm".toList]

/-- Name of the temporary file (`c++/eigen.hpp:571`, `c++/operators.hpp:94`). -/
def tmpName (fn : Str) : Str := fn ++ ".tmp".toList

/-! ## Splitting -/

/-- `split` (`c++/misc.hpp:225-235`): `getline` with a delimiter until the end of
the string; a trailing delimiter does not give a further empty item. `cur` is
the item read so far. -/
def splitAux (delim : Char) (cur : Str) : Str → List Str
  | [] => if cur = [] then [] else [cur]
  | c :: s => if c = delim then cur :: splitAux delim [] s else splitAux delim (cur ++ [c]) s

def split (delim : Char) (s : Str) : List Str := splitAux delim [] s

/-- `keepall(step, P)` (`c++/truncation.hpp:17-24`); `N` is `step.N()`. -/
def keepall (setting : Str) (N : Nat) : Bool :=
  if setting = [] then false
  else if setting = "even".toList && N % 2 == 0 then true
  else if setting = "odd".toList && N % 2 == 1 then true
  else (split ',' setting).contains (natStr N)

/-! ## Stored iterations -/

/-- Loop of `Params::init_laststored` (`c++/params.hpp:606-620`): `good N` tells
whether the file of iteration `N` can be opened. -/
def lastStored (good : Nat → Bool) (ninit nmax : Nat) : Option Nat :=
  (List.range' ninit (nmax - ninit)).foldl (fun acc n => if good n then some n else acc) none

/-- Value of `P.laststored` after construction: `init_laststored` runs in the
constructor (`c++/params.hpp:699`) and only if `resume` is set; `Nmax` has its
initial value 0 there (`c++/params.hpp:148`); it is set later, when the data file
is read (`c++/read-input.hpp:56-63`). -/
def lastStoredAfterConstruction (resume : Bool) (good : Nat → Bool) (ninit : Nat) : Option Nat :=
  if resume then lastStored good ninit 0 else none

/-- `load_or_compute_diag` in the first sweep (`c++/core.hpp:110`): is the stored
result used for iteration `n`? -/
def usesStored (resume : Bool) (last : Option Nat) (n : Nat) : Bool :=
  resume && (match last with | none => false | some l => n ≤ l)

end Verif.Text
