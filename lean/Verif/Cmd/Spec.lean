import Verif.Cmd.Model
/-!
# How a command line is written, and what it stands for
-/

namespace Verif.Cmd
open Verif.Text

/-- An option without argument: it is in the list, without a colon behind it. -/
def Flag (os : Str) (c : Char) : Prop := ∃ a b, os = a ++ c :: b ∧ c ∉ a ∧ c ≠ ':' ∧ b.head? ≠ some ':'

/-- An option with argument: a colon follows. -/
def WithArg (os : Str) (c : Char) : Prop := ∃ a b, os = a ++ c :: ':' :: b ∧ c ∉ a ∧ c ≠ ':'

/-- A piece of a command line: options behind one hyphen, such options ended by one with argument in the same or in the next word, or an operand. -/
inductive Piece
  | flags (fs : Str)
  | glued (fs : Str) (c : Char) (arg : Str)
  | apart (fs : Str) (c : Char) (arg : Str)
  | operand (s : Str)

def Piece.words : Piece → List Str
  | .flags fs => ['-' :: fs]
  | .glued fs c arg => ['-' :: (fs ++ c :: arg)]
  | .apart fs c arg => ['-' :: (fs ++ [c]), arg]
  | .operand s => [s]

def Piece.OK (os : Str) : Piece → Prop
  | .flags fs => fs ≠ [] ∧ ∀ f ∈ fs, Flag os f
  | .glued fs c arg => (∀ f ∈ fs, Flag os f) ∧ WithArg os c ∧ arg ≠ []
  | .apart fs c _ => (∀ f ∈ fs, Flag os f) ∧ WithArg os c
  | .operand s => s.head? ≠ some '-' ∨ s = ['-']

/-- Options with their arguments, in the order in which they are written. -/
abbrev Options := List (Char × Option Str)

def plainOpts (fs : Str) : Options := fs.map fun c => (c, none)

def Piece.options : Piece → Options
  | .flags fs => plainOpts fs
  | .glued fs c arg => plainOpts fs ++ [(c, some arg)]
  | .apart fs c arg => plainOpts fs ++ [(c, some arg)]
  | .operand _ => []

def Piece.operands : Piece → List Str
  | .operand s => [s]
  | _ => []

/-- A command line: pieces in any order; after `--` all words are operands. -/
structure Line where
  pieces : List Piece
  tail : Option (List Str)

def Line.words (l : Line) : List Str := l.pieces.flatMap Piece.words ++ match l.tail with | none => [] | some t => ['-', '-'] :: t
def Line.options (l : Line) : Options := l.pieces.flatMap Piece.options
def Line.operands (l : Line) : List Str := l.pieces.flatMap Piece.operands ++ l.tail.getD []
def Line.OK (os : Str) (l : Line) : Prop := ∀ p ∈ l.pieces, p.OK os

/-- The option `c` is given. -/
def given (c : Char) (l : Options) : Bool := l.any fun p => p.1 == c

/-- The argument of the last `c`. -/
def argOf (c : Char) (l : Options) : Option Str := ((l.filter fun p => p.1 == c).getLast?).bind Prod.snd

/-- The number given last with `c`, or the default. -/
def numOf (c : Char) (d : ℚ) (l : Options) : ℚ := ((argOf c l).map num).getD d

/-- The last of the options `cs` that is given. -/
def lastAmong (cs : List Char) (l : Options) : Option Char := ((l.map Prod.fst).filter fun c => cs.contains c).getLast?

/-! ## Settings of the tools -/

/-- `-o`: no directories for a single file. `-2`, `-3`: there are two columns of weights, and the first or second of them is used; the last one counts. -/
def colsOf (l : Options) : Cols where
  one := given 'o' l
  nrcol := if given '2' l || given '3' l then 2 else 1
  col := if lastAmong ['2', '3'] l = some '3' then 2 else 1

def momOf (l : Options) : MomSet where
  one := given 'o' l
  low := numOf 'l' 0 l
  high := (argOf 'h' l).map num
  posonly := given 'p' l
  negonly := given 'n' l
  central := given 'c' l

def brOf (l : Options) : BrSet where
  cumulative := given 'c' l
  sumrules := given 's' l
  min := numOf 'm' (1 / 10000000) l
  max := numOf 'M' 2 l
  ratio := numOf 'r' (101 / 100) l
  cols := colsOf l
  normalization := given 'n' l
  gaussian := given 'g' l
  finalGauss := (argOf 'f' l).map num
  finalDer := (argOf 'x' l).map num
  accumulation := numOf 'a' 0 l
  low := numOf 'l' 0 l
  high := (argOf 'h' l).map num
  keeppos := !given 'N' l
  keepneg := !given 'P' l
  meshpos := !given 'B' l
  meshneg := !given 'A' l
  mesh := (argOf 'L' l).getD []

def bwOf (l : Options) : BwSet where
  min := numOf 'm' (1 / 10000000) l
  max := numOf 'M' 2 l
  ratio := numOf 'r' (101 / 100) l
  iters := ((argOf 'n' l).map int).getD 10
  trim := numOf 't' (-999) l
  positivity := given 'p' l
  bmin := numOf 'x' (-999) l
  q := numOf 'q' 1 l
  savemore := given 's' l
  saveall := given 'S' l
  dyn := numOf 'd' (-999) l
  one := given 'o' l

/-- The part that `integ` prints. -/
def partOf : Option Char → Part
  | some 'p' => .pos
  | some 'n' => .neg
  | some 'a' => .abs
  | some 'f' => .fermi
  | _ => .total

/-- The argument of the last of two options that mean the same. -/
def argOf2 (c d : Char) (l : Options) : Option Str := ((l.filter fun p => p.1 == c || p.1 == d).getLast?).bind Prod.snd

def integOf (l : Options) : IntegSet where
  T := ((argOf2 't' 'T' l).map num).getD (1 / 10 ^ 99)
  out := partOf (lastAmong ['p', 'n', 'a', 'f'] l)

/-- All arguments of `c`. -/
def argsOf (c : Char) (l : Options) : List Str := (l.filter fun p => p.1 == c).map fun p => p.2.getD []

/-- `-s` or `-B`, whichever is last. -/
def hilbOf (l : Options) : HilbSet where
  scale := match lastAmong ['s', 'B'] l with
    | some 's' => some (numOf 's' 1 l)
    | some 'B' => recip (numOf 'B' 1 l)
    | _ => some 1
  width := match lastAmong ['s', 'B'] l with
    | some 's' => recip (numOf 's' 1 l)
    | some 'B' => some (numOf 'B' 1 l)
    | _ => some 1
  G := given 'G' l
  dos := argsOf 'd' l
  outs := argsOf 'o' l
  shiftx := numOf 'x' 0 l
  shifty := numOf 'y' 0 l

def diagOf (l : Options) : Mx.DOpt ℚ where
  text := lastAmong ['t', 'T'] l ≠ some 't'
  bin := lastAmong ['b', 'B'] l = some 'B'
  scale := numOf 's' 1 l
  fnVal := argOf 'o' l
  fnVec := argOf 'O' l

def unitaryOf (l : Options) : Mx.UOpt ℚ where
  bin := lastAmong ['b', 'B'] l = some 'B'
  first := given 't' l
  last := given 'l' l
  scale := numOf 's' 1 l
  tol := numOf 'c' (1 / 10 ^ 14) l
  out := argOf 'o' l

def calcOf (l : Options) : CalcSet where
  channels := (argOf 'c' l).map int
  sc := given 's' l
  prefixed := lastAmong ['p', 'P'] l = some 'P'

def h5Of (l : Options) : H5Set where
  scalar := given 's' l
  truncate := given 't' l

end Verif.Cmd
