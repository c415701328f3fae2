import Verif.Text.Model
/-!
# Reading the file `data`

Model of `InputData` (`c++/read-input.hpp`) for real matrix elements: the stream is
the list of the characters that remain; `none` is an exception or a failed
assertion, both of which end the program. Numbers are exact decimals: rounding to double precision,
overflow and the rescaling of energies are not modelled.
-/

namespace Verif.DataFile

open Verif.Text
open Verif.Invar (Label)

/-- A reader: the value and the rest of the stream. -/
abbrev Rd (α : Type) := Str → Option (α × Str)

/-- An exact decimal number `m · 10^e`. -/
structure Dec where
  m : Int
  e : Int
  deriving DecidableEq

/-- Stream extraction of a `size_t`: like that of an `int`, a negative number is taken modulo 2^64;
fails without digits and for numbers that do not fit in 64 bits. -/
def readNat : Rd Nat := fun s =>
  let t := readSign (s.dropWhile isSpace)
  let ds := t.2.takeWhile isDigit
  let v := natValue ds
  if ds = [] then none
  else if v ≥ 2 ^ 64 then none
  else some (if t.1 ∧ v ≠ 0 then 2 ^ 64 - v else v, t.2.dropWhile isDigit)

/-- The fractional part of a number. -/
def readFrac : Str → Str × Str
  | '.' :: u => (u.takeWhile isDigit, u.dropWhile isDigit)
  | u => ([], u)

/-- The exponent of a number: `none` if there is an `e` without digits. -/
def readExp : Str → Option (Int × Str)
  | c :: u =>
    if c = 'e' ∨ c = 'E' then
      let t := readSign u
      let ds := t.2.takeWhile isDigit
      if ds = [] then none
      else some (if t.1 then -(natValue ds : Int) else natValue ds, t.2.dropWhile isDigit)
    else some (0, c :: u)
  | [] => some (0, [])

/-- Stream extraction of a `double`: white space, sign, digits, fraction, exponent; it fails
without digits and for an exponent without digits. -/
def readDec : Rd Dec := fun s =>
  let t := readSign (s.dropWhile isSpace)
  let ip := t.2.takeWhile isDigit
  let f := readFrac (t.2.dropWhile isDigit)
  if ip = [] ∧ f.1 = [] then none
  else
    match readExp f.2 with
    | none => none
    | some (e, r) =>
      let v : Int := natValue (ip ++ f.1)
      some (⟨if t.1 then -v else v, e - f.1.length⟩, r)

/-- `read_one<char>` (`c++/basicio.hpp:146-153`). -/
def readChar : Rd Char := fun s =>
  match s.dropWhile isSpace with
  | [] => none
  | c :: r => some (c, r)

/-- A loop that reads `n` objects. -/
def readN {α : Type} (f : Rd α) : Nat → Rd (List α)
  | 0 => fun s => some ([], s)
  | n + 1 => fun s =>
    match f s with
    | none => none
    | some (a, r) =>
      match readN f n r with
      | none => none
      | some (l, r') => some (a :: l, r')

/-- One reader after another. -/
def seq {α β : Type} (f : Rd α) (g : α → Rd β) : Rd β := fun s =>
  match f s with
  | none => none
  | some (a, r) => g a r

def ret {α : Type} (a : α) : Rd α := fun s => some (a, s)

/-- `my_assert` and other checks. -/
def check {α : Type} (b : Bool) (a : α) : Rd α := fun s => if b then some (a, s) else none

/-! ## Lines -/

/-- What `std::getline` returns. -/
def takeLine (s : Str) : Str := s.takeWhile (· != '\n')

/-- What `std::getline` leaves. -/
def afterLine (s : Str) : Str := (s.dropWhile (· != '\n')).drop 1

/-- `if (fdata.peek() == '\n') fdata.ignore()` (`c++/read-input.hpp:47`). -/
def dropNl : Str → Str
  | [] => []
  | c :: s => if c = '\n' then s else c :: s

/-- `skip_comments` (`c++/misc.hpp:145-160`). The first argument bounds the number of rounds. -/
def skipComments : Nat → Str → Str
  | 0, s => s
  | _ + 1, [] => []
  | n + 1, c :: s =>
    if c = ' ' ∨ c = '\t' ∨ c = '\n' then skipComments n s
    else if c = '#' then skipComments n (afterLine s)
    else c :: s

/-! ## Header -/

/-- `line.find("symtype", 1) != npos` (`c++/read-input.hpp:42`). -/
def mentionsSym (line : Str) : Bool := (line.drop 1).tails.any fun t => "symtype".toList.isPrefixOf t

/-- The part of the line after the last blank or tab (`c++/read-input.hpp:43-44`). -/
def lastWord (line : Str) : Option Str :=
  let w := line.reverse.takeWhile fun c => !(c = ' ' || c = '\t')
  if w.length = line.length then none else if w = [] then none else some w.reverse

/-- The symmetry type after reading a comment line (`c++/read-input.hpp:42-45`). -/
def symOf (line : Str) (sym : Str) : Str :=
  if mentionsSym line then (match lastWord line with | some w => w | none => sym) else sym

/-- `DataHeader` (`c++/read-input.hpp:24-29`). -/
structure Header where
  sym : Str
  channels : Nat
  Nmax : Nat
  nsubs : Nat
  deriving DecidableEq

/-- The loop over comment lines in `read_data_header` (`c++/read-input.hpp:34-48`): data version and
symmetry type. A version that cannot be read makes the assertion that follows fail. -/
def headerLoop : Nat → Int → Str → Rd (Int × Str)
  | 0, ver, sym, s => some ((ver, sym), s)
  | _ + 1, ver, sym, [] => some ((ver, sym), [])
  | n + 1, ver, sym, c :: s =>
    if c = '#' then
      if s.head? = some '!' then
        match readInt (s.drop 1) with
        | none => none
        | some (v, r) => headerLoop n v sym (dropNl r)
      else headerLoop n ver (symOf (takeLine s) sym) (dropNl (afterLine s))
    else some ((ver, sym), c :: s)

/-- `read_data_header` (`c++/read-input.hpp:31-51`). -/
def readHeader : Rd Header := fun s =>
  seq (headerLoop s.length (-1) []) (fun vs =>
    if vs.1 = 9 then
      seq readNat fun ch => seq readNat fun nm => seq readNat fun ns => ret ⟨vs.2, ch, nm, ns⟩
    else fun _ => none) s

/-! ## Spectra and operators -/

/-- The parameters: symmetry type, number of quantum numbers of a label (set by the symmetry type), `coeffactor`,
and whether `tri` is `cpp` (`c++/params.hpp`). -/
structure Par where
  sym : Str
  invdim : Nat
  coeffactor : Nat
  tricpp : Bool

/-- Number of operators per channel (`c++/params.hpp:575-581`). -/
def perchannel (sym : Str) : Nat :=
  if sym ∈ ["U1".toList, "SU2".toList, "DBLSU2".toList] then 2
  else if sym ∈ ["NONE".toList, "P".toList, "PP".toList] then 4
  else 1

/-- `read_std_vector` (`c++/basicio.hpp:167-181`) with the length, or with the maximal
index (64-bit arithmetic). -/
def readVec (maxIndex : Bool) : Rd (List Dec) :=
  seq readNat fun nr => readN readDec (if maxIndex then (nr + 1) % 2 ^ 64 else nr)

/-- The constructor of `DiagInfo` (`c++/eigen.hpp:464-475`). -/
def readDiag (P : Par) (nsubs : Nat) : Rd (List (Label × List Dec)) := fun s =>
  seq (readN (seq (extractor P.invdim) fun I => seq (readVec false) fun es => ret (I, es)) nsubs)
    (fun l => check (l.map (·.1)).Nodup l) (skipComments s.length s)

/-- Irreducible matrix elements: the blocks in the order of the file. -/
abbrev MatEl := List ((Label × Label) × List (List Dec))

/-- Number of states of a subspace (`c++/eigen.hpp:364`). -/
def dimOf (subs : List (Label × List Dec)) (I : Label) : Option Nat := (subs.lookup I).map List.length

/-- One block of matrix elements (`c++/operators.hpp:33-40`, `c++/numerics_Eigen.hpp:84-95`). -/
def readBlock (P : Par) (subs : List (Label × List Dec)) : Rd ((Label × Label) × List (List Dec)) :=
  seq (extractor P.invdim) fun I1 => seq (extractor P.invdim) fun I2 =>
    match dimOf subs I1, dimOf subs I2 with
    | some n1, some n2 => seq (readN (readN readDec n2) n1) fun m => ret ((I1, I2), m)
    | _, _ => fun _ => none

/-- The constructor of `MatrixElements` (`c++/operators.hpp:31-42`). -/
def readMatEl (P : Par) (subs : List (Label × List Dec)) : Rd MatEl :=
  seq readNat fun nf => seq (readN (readBlock P subs) nf) fun l => check (l.map (·.1)).Nodup l

/-- One operator of the Wilson chain (`c++/operators.hpp:180-184`). -/
def readF (P : Par) (subs : List (Label × List Dec)) : Rd MatEl :=
  seq readChar fun ch => seq readNat fun _ => seq readNat fun _ =>
    if ch = 'f' then readMatEl P subs else fun _ => none

/-- The constructor of `Opch` (`c++/operators.hpp:174-187`). -/
def readOpch (P : Par) (channels : Nat) (subs : List (Label × List Dec)) : Rd (List (List MatEl)) := fun s =>
  readN (readN (readF P subs) (perchannel P.sym)) channels (skipComments s.length s)

/-! ## Blocks -/

/-- The data of the blocks: the maps of operators (the kind is the letter of the block), the energy of the
ground state and the sets of coefficient tables (by the letter of the block). -/
structure Blocks where
  oper : Char → Str → Option MatEl
  gs : Option Dec
  coef : Char → Option (List (List (List Dec)))

def Blocks.empty : Blocks := ⟨fun _ _ => none, none, fun _ => none⟩

/-- `operators.op…[opname] = …`. -/
def Blocks.setOper (b : Blocks) (k : Char) (n : Str) (m : MatEl) : Blocks :=
  { b with oper := fun k' n' => if k' = k ∧ n' = n then some m else b.oper k' n' }

def Blocks.setCoef (b : Blocks) (k : Char) (t : List (List (List Dec))) : Blocks :=
  { b with coef := fun k' => if k' = k then some t else b.coef k' }

/-- The letters of operators (`c++/read-input.hpp:97-103`). -/
def operLetters : List Char := ['s', 'p', 'g', 'd', 't', 'o', 'q']

/-- The number of sets of coefficient tables in a block (`c++/read-input.hpp:104-121`). -/
def coefSets : Char → Option Nat
  | 'z' => some 2
  | 'Z' => some 2
  | 'X' => some 2
  | 'T' => some 4
  | _ => none

/-- The body of one block (`c++/read-input.hpp:93-129`; the block `W` is not compiled in). -/
def readBody (P : Par) (channels : Nat) (subs : List (Label × List Dec)) (ch : Char) (name : Str) (b : Blocks) : Rd Blocks :=
  if ch = '#' then ret b
  else if ch = 'e' then seq readDec fun x => ret { b with gs := some x }
  else if ch ∈ operLetters then seq (readMatEl P subs) fun m => ret (b.setOper ch name m)
  else
    match coefSets ch with
    | some n => seq (readN (readN (readVec true) (P.coeffactor * channels)) n) fun t => ret (b.setCoef ch t)
    | none => fun _ => none

/-- `read_blocks` (`c++/read-input.hpp:68-74, 88-131`). The loop ends when the stream has ended, also
within the first line of a block. The first argument bounds the number of rounds. -/
def readBlocks (P : Par) (channels : Nat) (subs : List (Label × List Dec)) : Nat → Blocks → Str → Option Blocks
  | 0, b, _ => some b
  | n + 1, b, s =>
    match s.dropWhile isSpace with
    | [] => some b
    | ch :: r =>
      if r.any (· == '\n') then
        match readBody P channels subs ch (takeLine r) b (afterLine r) with
        | none => none
        | some (b', r') => readBlocks P channels subs n b' r'
      else some b

/-! ## The whole file -/

structure Data where
  header : Header
  subs : List (Label × List Dec)
  opch : List (List MatEl)
  blocks : Blocks

/-- `coef.xi.max(0)` (`c++/coef.hpp:30-33, 104-107`). -/
def xiMax (b : Blocks) : Option Nat :=
  match b.coef 'z' with
  | some (xi :: _) =>
    match xi with
    | t :: _ => if t = [] then none else some (t.length - 1)
    | [] => none
  | _ => none

/-- `finalize_coefficients` and `determine_Nmax_Nlen` (`c++/read-input.hpp:55-63, 133-137`): without the
tridiagonalisation the number of coefficients in the file must agree with the header. With it the
tables are computed; that is the subject of other modules. -/
def finalOK (P : Par) (h : Header) (b : Blocks) : Bool :=
  P.tricpp || decide (xiMax b = some h.Nmax)

/-- `InputData::read` (`c++/read-input.hpp:76-86, 139-145`, `c++/params.hpp:562-574`). -/
def read (P : Par) (s : Str) : Option Data :=
  match readHeader s with
  | none => none
  | some (h, r) =>
    if h.sym = P.sym ∧ 1 ≤ h.channels then
      match readDiag P h.nsubs r with
      | none => none
      | some (subs, r) =>
        match readOpch P h.channels subs r with
        | none => none
        | some (opch, r) =>
          match readBlocks P h.channels subs (r.length + 1) Blocks.empty r with
          | none => none
          | some b => if finalOK P h b then some ⟨h, subs, opch, b⟩ else none
    else none

end Verif.DataFile
