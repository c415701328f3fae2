import Verif.DataFile.Model
import Verif.Param.Model
import Verif.Inst.Model
import Verif.Mat.Model
import Mathlib.Algebra.Order.Field.Basic
/-!
# Instantiation of a template (`tools/instantiate/instantiate.cc`)

The tool reads a template of the file `data`, evaluates and diagonalises the Hamiltonian of every subspace, transforms all
operators to the eigenbasis, appends the coefficients of the Wilson chain and writes the file `data`.

Numbers are elements of an ordered field `K`. `none` is an exception, which ends the program. Where a number is printed the function `fmt` gives
its decimal notation (with the given number of significant digits). The
temporary files that are written with `--generate-temporaries` are not part of this module.
-/

namespace Verif.Seed

open Verif.Text
open Verif.Invar (Label)
open Verif.DataFile (Dec Par)

/-- The number that a decimal stands for. -/
def num {K : Type} [Field K] (d : Dec) : K := (d.m : K) * (10 : K) ^ d.e

/-- What the tool is given besides the template: the parameters of the main program, `Nmax`, the variables, coefficients and
functions of the evaluator (`make_matrix_evaluator`, `instantiate.cc:655-660`), the files of the template (as found by `resolve_template_file`,
96-105; `none`: cannot be opened), the eigensolver (`diagonalise_dsyev`; values, and eigenvectors in the rows), the coefficients of the chain, and the
printed form of a number with the given number of significant digits. -/
structure Ctx (K : Type) where
  P : Par
  nmax : Nat
  E : Inst.Env K
  files : Str → Option Str
  diag : Nat → (Nat → Nat → K) → Option (List K × (Nat → Nat → K))
  xi : List K
  zeta : List K
  fmt : Nat → K → Str

variable {K : Type} [Field K] [LinearOrder K]

/-! ## Lines -/

/-- Extraction of a word from a stream. -/
def readWord (s : Str) : Str × Str :=
  let t := s.dropWhile isSpace
  (t.takeWhile fun c => !isSpace c, t.dropWhile fun c => !isSpace c)

/-- `scale_from_comment` (`instantiate.cc:271-278`), without taking the inverse. A number that cannot be read is zero. -/
def scaleOf (line : Str) : Option K :=
  let h := readWord line
  let k := readWord h.2
  if h.1 = "#".toList ∧ k.1 = "SCALE".toList then
    some (match DataFile.readDec k.2 with | some (d, _) => num d | none => 0)
  else none

/-- State of `DataTemplateReader` (`instantiate.cc:265-305`): lines that remain, the last scale, and what was written to the output. -/
structure St (K : Type) where
  rest : List Str
  scale : Option K
  out : Str

def St.put (s : St K) (t : Str) : St K := { s with out := s.out ++ t }

/-- The scale after a comment. -/
def newScale (line : Str) (old : Option K) : Option K :=
  match scaleOf (strip line) with
  | some x => some x
  | none => old

/-- `next_data_line` (`instantiate.cc:286-299`). -/
def next : List Str → Option K → Str → Option Str × St K
  | [], sc, out => (none, ⟨[], sc, out⟩)
  | l :: ls, sc, out =>
    match strip l with
    | [] => next ls sc out
    | c :: t =>
      if c = '#' then next ls (newScale l sc) (out ++ (l ++ ['\n']))
      else (some (c :: t), ⟨ls, sc, out⟩)

def St.next (s : St K) : Option Str × St K := Seed.next s.rest s.scale s.out

/-- `factor` (`instantiate.cc:301-304`). A scale of zero makes the factor infinite; then the energies are not finite, and the file that contains
them is not accepted by the reader. That is `none` too. -/
def factor (sc : Option K) : Option K :=
  match sc with
  | none => none
  | some x => if 0 < x then some (1 / x) else none

/-! ## Parsing of lines -/

/-- `parse_size_t_value` (`instantiate.cc:382-392`). -/
def parseSize (t : Str) : Option Nat :=
  let s := strip t
  if s ≠ [] ∧ s.all isDigit ∧ natValue s < 2 ^ 64 then some (natValue s) else none

/-- `parse_double_value` (`instantiate.cc:394-400`). Hexadecimal notation, which `strtod` accepts, is not modelled. -/
def parseDouble (t : Str) : Option K :=
  match DataFile.readDec t with
  | some (d, r) => if strip r = [] then some (num d) else none
  | none => none

/-- `parse_invar_line` (`instantiate.cc:355-366`). -/
def parseInvar (dim : Nat) (line : Str) : Option Label :=
  match extractor dim line with
  | some (I, r) => if strip r = [] then some I else none
  | none => none

/-- `parse_invar_pair_line` (`instantiate.cc:368-380`). -/
def parsePair (dim : Nat) (line : Str) : Option (Label × Label) :=
  match extractor dim line with
  | some (I, r) =>
    match extractor dim r with
    | some (I', r') => if strip r' = [] then some (I, I') else none
    | none => none
  | none => none

/-- `fields` (`instantiate.cc:257-263`). The first argument bounds the number of words. -/
def fields : Nat → Str → List Str
  | 0, _ => []
  | n + 1, s =>
    let w := readWord s
    if w.1 = [] then [] else w.1 :: fields n w.2

/-! ## Header and subspaces -/

/-- `TemplateHeader` and `read_template_header` (`instantiate.cc:307-311, 421-429`). -/
def readHeader (line : Str) : Option (Nat × Nat × Nat) :=
  match DataFile.readNat line with
  | none => none
  | some (a, r) =>
    match DataFile.readNat r with
    | none => none
    | some (b, r) =>
      match DataFile.readNat r with
      | none => none
      | some (c, _) => some (a, b, c)

/-- The evaluated matrix in a file of the template (`read_text_file`, `evaluate_matrix`). -/
def Ctx.evalFile [DecidableEq K] (C : Ctx K) (fn : Str) : Option (Inst.Matrix K) :=
  match C.files fn with
  | none => none
  | some t =>
    match Inst.evaluateMatrix C.E t with
    | .error _ => none
    | .ok m => some m

/-- Element of a matrix given by its rows. -/
def entry (l : List (List K)) (i j : Nat) : K := (l.getD i []).getD j 0

/-- `SeedSubspace` (`instantiate.cc:313-319`); the energies are in the units of the file, without the shift. -/
structure Sub (K : Type) where
  line : Str
  qn : Label
  dim : Nat
  val : List K
  vec : Nat → Nat → K

/-- The keyword and the file name of a line (`instantiate.cc:472-475`). -/
def diagFile (line : Str) : Option Str :=
  let k := readWord line
  let f := readWord k.2
  if k.1 = "DIAG".toList ∧ f.1 ≠ [] then some f.1 else none

/-- One subspace, after its three lines have been read (`instantiate.cc:467-499`); `fac` is the factor. -/
def readSub (C : Ctx K) (fac : K) (done : List (Sub K)) (qnLine sizeLine diagLine : Str) : Option (Sub K) :=
  match parseInvar C.P.invdim qnLine with
  | none => none
  | some I =>
    match parseSize sizeLine with
    | none => none
    | some n =>
      if n = 0 then none
      else
        match diagFile diagLine with
        | none => none
        | some fn =>
          match C.evalFile fn with
          | none => none
          | some m =>
            if m.rows = n ∧ m.cols = n then
              match C.diag n (entry m.entries) with
              | none => none
              | some (w, v) =>
                if I ∈ done.map (·.qn) then none
                else some ⟨qnLine, I, n, w.map (· * fac), v⟩
            else none

/-- The loop of `read_seed_data` (`instantiate.cc:460-500`). The factor is taken when the first subspace has been read; `none` before. -/
def seedLoop (C : Ctx K) : Nat → Option K → List (Sub K) → St K → Option (Option K × List (Sub K) × St K)
  | 0, fac, done, s => some (fac, done, s)
  | n + 1, fac, done, s =>
    let a := s.next
    let b := a.2.next
    let c := b.2.next
    match a.1, b.1, c.1 with
    | some q, some z, some d =>
      match (match fac with | some f => some f | none => factor c.2.scale) with
      | none => none
      | some f =>
        match readSub C f done q z d with
        | none => none
        | some x => seedLoop C n (some f) (done ++ [x]) c.2
    | _, _, _ => none

/-- The smallest energy (`instantiate.cc:488`): the first one of every subspace is considered. -/
def smallest : List (Sub K) → Option K
  | [] => none
  | x :: l =>
    match x.val.head?, smallest l with
    | some e, some m => some (min e m)
    | some e, none => some e
    | none, r => r

/-- `SeedData` (`instantiate.cc:321-328`): factor, smallest energy, subspaces. -/
structure Seed (K : Type) where
  fac : K
  low : K
  subs : List (Sub K)

/-- `seed.ground_energy` (`instantiate.cc:504`). -/
def Seed.ground (d : Seed K) : K := d.low / d.fac

/-- `read_seed_data` (`instantiate.cc:456-506`). -/
def readSeed (C : Ctx K) (n : Nat) (s : St K) : Option (Seed K × St K) :=
  match seedLoop C n none [] s with
  | some (some f, l, s') =>
    match smallest l with
    | some e => some (⟨f, e, l⟩, s')
    | none => none
  | _ => none

/-- Numbers separated by single blanks, and a line break. -/
def rowText (ts : List Str) : Str := ((ts.intersperse [' ']).flatten) ++ ['\n']

/-- One subspace in `write_seed_energy_block` (`instantiate.cc:508-519`). -/
def subText (C : Ctx K) (low : K) (x : Sub K) : Str :=
  (x.line ++ ['\n']) ++ ((natStr x.dim ++ ['\n']) ++ rowText (x.val.map fun e => C.fmt 18 (e - low)))

/-! ## Operators -/

/-- `parse_inline_matrix` (`instantiate.cc:431-442`). -/
def inlineMatrix (rows : List Str) (cols : Nat) : Option (List (List K)) :=
  rows.mapM fun r =>
    let t := fields r.length r
    if t.length = cols then t.mapM parseDouble else none

/-- The lines of an inline matrix after the first one (`instantiate.cc:534-539`). -/
def moreLines : Nat → St K → Option (List Str × St K)
  | 0, s => some ([], s)
  | n + 1, s =>
    match s.next with
    | (none, _) => none
    | (some l, s') =>
      match moreLines n s' with
      | none => none
      | some (ls, s'') => some (l :: ls, s'')

/-- `read_operator_matrix` (`instantiate.cc:521-541`). -/
def readMatrix (C : Ctx K) (first : Str) (rows cols : Nat) (s : St K) : Option (List (List K) × St K) :=
  if first.head? = some 'o' then
    match C.evalFile first with
    | none => none
    | some m => if m.rows = rows ∧ m.cols = cols then some (m.entries, s) else none
  else
    match moreLines (rows - 1) s with
    | none => none
    | some (ls, s') =>
      match inlineMatrix (first :: ls) cols with
      | none => none
      | some m => some (m, s')

/-- The subspace with given quantum numbers (`seed.dimensions`, `seed.eigenvectors`). -/
def findSub (l : List (Sub K)) (I : Label) : Option (Sub K) := l.find? fun x => x.qn = I

/-- `matrix_prod` and `trans` (`instantiate.cc:574-575`): first `O V₂ᵀ`, then `V₁` times that. -/
def transformed (x y : Sub K) (m : List (List K)) : List (List K) :=
  let O : Mat.Mat K := ⟨x.dim, y.dim, entry m⟩
  let V2T : Mat.Mat K := ⟨y.dim, y.dim, fun i j => y.vec j i⟩
  let inter : Mat.Mat K := ⟨O.r, V2T.c, fun i j => ∑ k ∈ Finset.range O.c, O.e i k * V2T.e k j⟩
  let res : Mat.Mat K := ⟨x.dim, inter.c, fun i j => ∑ k ∈ Finset.range x.dim, x.vec i k * inter.e k j⟩
  (List.range res.r).map fun i => (List.range res.c).map fun j => res.e i j

/-- `write_matrix` (`instantiate.cc:444-454`): elements of modulus up to 1e-14 are written as zero. -/
def matrixText (C : Ctx K) (m : List (List K)) : Str :=
  m.flatMap fun r => rowText (r.map fun v => C.fmt 18 (if (1 : K) / 10 ^ 14 < |v| then v else 0))

/-- The loop of `read_matrix_block` (`instantiate.cc:554-577`): quantum numbers as written, and the transformed matrix. -/
def elemLoop (C : Ctx K) (d : Seed K) : Nat → St K → Option (List (Str × List (List K)) × St K)
  | 0, s => some ([], s)
  | n + 1, s =>
    match s.next with
    | (none, _) => none
    | (some q, s1) =>
      match parsePair C.P.invdim q with
      | none => none
      | some (I, J) =>
        match findSub d.subs I, findSub d.subs J with
        | some x, some y =>
          match s1.next with
          | (none, _) => none
          | (some f, s2) =>
            match readMatrix C f x.dim y.dim s2 with
            | none => none
            | some (m, s3) =>
              match elemLoop C d n s3 with
              | none => none
              | some (l, s4) => some ((q, transformed x y m) :: l, s4)
        | _, _ => none

/-- `read_matrix_block` (`instantiate.cc:543-580`). -/
def readElems (C : Ctx K) (d : Seed K) (s : St K) : Option (List (Str × List (List K)) × St K) :=
  match s.next with
  | (none, _) => none
  | (some c, s1) =>
    match parseSize c with
    | none => none
    | some n => elemLoop C d n s1

/-- `write_matrix_block` (`instantiate.cc:582-589`). -/
def elemsText (C : Ctx K) (header : Str) (l : List (Str × List (List K))) : Str :=
  (header ++ ['\n']) ++ ((natStr l.length ++ ['\n']) ++ l.flatMap fun e => (e.1 ++ ['\n']) ++ matrixText C e.2)

/-- `is_operator_block` (`instantiate.cc:591-594`). -/
def isOper (c : Char) : Bool := c ∈ ['s', 'p', 'd', 'v', 't', 'o', 'g', 'q']

/-- The loop of `process_template_tail` (`instantiate.cc:596-637`): number of blocks `f` so far, whether a block `e` was found. The first argument
bounds the number of rounds. -/
def tailLoop (C : Ctx K) (d : Seed K) (expected : Nat) : Nat → Nat → Bool → St K → Option (Nat × Bool × St K)
  | 0, w, e, s => some (w, e, s)
  | n + 1, w, e, s =>
    match s.next with
    | (none, s1) => some (w, e, s1)
    | (some l, s1) =>
      if l.head? = some 'f' then
        if expected < w + 1 then none
        else
          match readElems C d s1 with
          | none => none
          | some (x, s2) => tailLoop C d expected n (w + 1) e (s2.put (elemsText C l x))
      else if l = ['e'] then
        match s1.next with
        | (none, _) => none
        | (some _, s2) => tailLoop C d expected n w true (s2.put ("e\n".toList ++ (C.fmt 18 d.ground ++ ['\n'])))
      else if l.head? = some 'z' ∨ l.head? = some 'Z' ∨ l.head? = some 'T' then some (w, e, s1)
      else if isOper (l.headD ' ') then
        match readElems C d s1 with
        | none => none
        | some (x, s2) => tailLoop C d expected n w e (s2.put (elemsText C l x))
      else none

/-- `write_coefficient_table` (`instantiate.cc:639-644`). -/
def coefText (C : Ctx K) (v : List K) : Option Str :=
  if v.length ≤ C.nmax then none
  else some ((natStr C.nmax ++ ['\n']) ++ (v.take (C.nmax + 1)).flatMap fun x => C.fmt 16 x ++ ['\n'])

/-- `write_z_coefficients` (`instantiate.cc:646-653`) for one channel of the chain. -/
def zText (C : Ctx K) : Option Str :=
  if C.P.coeffactor ≠ 1 then none
  else
    match coefText C C.xi, coefText C C.zeta with
    | some a, some b => some ("z\n".toList ++ (a ++ b))
    | _, _ => none

/-- The text that is built, and the energy of the ground state (`run_full_instantiation`, `instantiate.cc:716-747`). -/
def build (C : Ctx K) (template : Str) : Option (Str × K) :=
  match St.next ⟨Param.lines template, none, []⟩ with
  | (none, _) => none
  | (some h, s) =>
    match readHeader h with
    | none => none
    | some (ch, _, n) =>
      if ch = 1 then
        match readSeed C n (s.put (natStr ch ++ ' ' :: (natStr C.nmax ++ ' ' :: (natStr n ++ ['\n'])))) with
        | none => none
        | some (d, s1) =>
          match tailLoop C d (DataFile.perchannel C.P.sym) (s1.rest.length + 1) 0 false (s1.put (d.subs.flatMap (subText C d.low))) with
          | none => none
          | some (w, e, s2) =>
            if w = DataFile.perchannel C.P.sym ∧ e = true then
              match zText C with
              | none => none
              | some z => some (s2.out ++ z, d.ground)
            else none
      else none

/-- `run_full_instantiation`: the text is written to the file `data` only if the main program can read it (`validate_generated_data`, `instantiate.cc:688-693, 749-754`). -/
def instantiate (C : Ctx K) (template : Str) : Option (Str × K) :=
  match build C template with
  | none => none
  | some (t, g) =>
    match DataFile.read C.P t with
    | none => none
    | some _ => some (t, g)

end Verif.Seed
