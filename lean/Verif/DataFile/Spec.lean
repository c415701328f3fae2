import Verif.DataFile.Model
/-!
# The format of the file `data`

A data file as a structured object, its text, and the data that it stands for. White space in front of
every number is part of the object, so that every layout is covered.
-/

namespace Verif.DataFile

open Verif.Text
open Verif.Invar (Label)

/-- White space. -/
def Blank (ws : Str) : Prop := ∀ c ∈ ws, isSpace c = true

/-- An exponent as written: the letter `e` or `E`, an optional sign (`true` is minus), digits. -/
structure Expo where
  upper : Bool
  sign : Option Bool
  ds : Str

/-- A decimal number as written: sign, digits, fraction, exponent. -/
structure Lit where
  neg : Bool
  ip : Str
  fp : Option Str
  ex : Option Expo

def signText : Option Bool → Str
  | some true => ['-']
  | some false => ['+']
  | none => []

/-- The text and the value of an exponent. -/
def exText : Option Expo → Str
  | some x => (if x.upper then 'E' else 'e') :: (signText x.sign ++ x.ds)
  | none => []
def exVal : Option Expo → Int
  | some x => if x.sign = some true then -(natValue x.ds : Int) else natValue x.ds
  | none => 0
def ExOK (ex : Option Expo) : Prop := ∀ x ∈ ex, x.ds ≠ [] ∧ ∀ c ∈ x.ds, isDigit c = true

def Lit.frac (l : Lit) : Str := match l.fp with | some f => f | none => []

def Lit.text (l : Lit) : Str :=
  (if l.neg then ['-'] else []) ++ (l.ip ++ ((match l.fp with | some f => '.' :: f | none => []) ++
    exText l.ex))

/-- Its value. -/
def Lit.val (l : Lit) : Dec :=
  ⟨if l.neg then -(natValue (l.ip ++ l.frac) : Int) else natValue (l.ip ++ l.frac),
    exVal l.ex - l.frac.length⟩

def Lit.OK (l : Lit) : Prop :=
  (∀ c ∈ l.ip, isDigit c = true) ∧ (∀ c ∈ l.frac, isDigit c = true) ∧ (l.ip ≠ [] ∨ l.frac ≠ []) ∧ ExOK l.ex

/-- Something preceded by white space. -/
structure Tok (α : Type) where
  ws : Str
  v : α

/-- The white space is not empty. -/
def Tok.OK {α : Type} (t : Tok α) : Prop := t.ws ≠ [] ∧ Blank t.ws

def numText (t : Tok Lit) : Str := t.ws ++ t.v.text
def natText (t : Tok Nat) : Str := t.ws ++ natStr t.v
def intText (t : Tok Int) : Str := t.ws ++ intStr t.v

def NumOK (t : Tok Lit) : Prop := t.OK ∧ t.v.OK
def NatOK (t : Tok Nat) : Prop := t.OK ∧ t.v < 2 ^ 64
def IntOK (t : Tok Int) : Prop := t.OK ∧ inInt t.v

/-- Quantum numbers of a subspace. -/
abbrev LabT := List (Tok Int)
def labText (l : LabT) : Str := l.flatMap intText
def labVal (l : LabT) : Label := l.map Tok.v
def LabOK (P : Par) (l : LabT) : Prop := l.length = P.invdim ∧ ∀ t ∈ l, IntOK t

/-- A list of numbers preceded by a count. -/
structure VecT where
  n : Tok Nat
  vals : List (Tok Lit)
def VecT.text (v : VecT) : Str := natText v.n ++ v.vals.flatMap numText
def VecT.val (v : VecT) : List Dec := v.vals.map fun t => t.v.val
/-- The count is the length, or the maximal index. -/
def VecT.OK (maxIndex : Bool) (v : VecT) : Prop :=
  NatOK v.n ∧ (∀ t ∈ v.vals, NumOK t) ∧ (if maxIndex then v.vals.length = v.n.v + 1 ∧ v.n.v + 1 < 2 ^ 64 else v.vals.length = v.n.v)

/-- A subspace and its energies. -/
structure SubT where
  lab : LabT
  vec : VecT
def SubT.text (s : SubT) : Str := labText s.lab ++ s.vec.text
def SubT.val (s : SubT) : Label × List Dec := (labVal s.lab, s.vec.val)

/-- A block of matrix elements. -/
structure MatT where
  lab1 : LabT
  lab2 : LabT
  rows : List (List (Tok Lit))
def MatT.text (m : MatT) : Str := labText m.lab1 ++ (labText m.lab2 ++ m.rows.flatMap fun r => r.flatMap numText)
def MatT.val (m : MatT) : (Label × Label) × List (List Dec) :=
  ((labVal m.lab1, labVal m.lab2), m.rows.map fun r => r.map fun t => t.v.val)
/-- Both subspaces are among those of the file, and the matrix has their dimensions. -/
def MatT.OK (P : Par) (subs : List SubT) (m : MatT) : Prop :=
  LabOK P m.lab1 ∧ LabOK P m.lab2 ∧ ∃ s1 ∈ subs, ∃ s2 ∈ subs, labVal s1.lab = labVal m.lab1 ∧ labVal s2.lab = labVal m.lab2 ∧
    m.rows.length = s1.vec.vals.length ∧ ∀ r ∈ m.rows, r.length = s2.vec.vals.length ∧ ∀ t ∈ r, NumOK t

/-- The matrix elements of an operator. -/
structure OperT where
  nf : Tok Nat
  mats : List MatT
def OperT.text (o : OperT) : Str := natText o.nf ++ o.mats.flatMap MatT.text
def OperT.val (o : OperT) : MatEl := o.mats.map MatT.val
def OperT.OK (P : Par) (subs : List SubT) (o : OperT) : Prop :=
  NatOK o.nf ∧ o.mats.length = o.nf.v ∧ (∀ m ∈ o.mats, m.OK P subs) ∧ (o.val.map (·.1)).Nodup

/-- An operator of the Wilson chain. -/
structure ChainT where
  ws : Str
  i : Tok Nat
  j : Tok Nat
  op : OperT
def ChainT.text (f : ChainT) : Str := f.ws ++ 'f' :: (natText f.i ++ (natText f.j ++ f.op.text))
def ChainT.OK (P : Par) (subs : List SubT) (f : ChainT) : Prop :=
  f.ws ≠ [] ∧ Blank f.ws ∧ NatOK f.i ∧ NatOK f.j ∧ f.op.OK P subs

/-- The blocks after the operators of the Wilson chain. -/
inductive Body
  | comment (line : Str)
  | energy (line : Str) (x : Tok Lit)
  | oper (k : Char) (name : Str) (o : OperT)
  | coef (k : Char) (line : Str) (t : List (List VecT))

structure BlockT where
  ws : Str
  body : Body

/-- The letter of a block. -/
def Body.letter : Body → Char
  | .comment _ => '#'
  | .energy _ _ => 'e'
  | .oper k _ _ => k
  | .coef k _ _ => k

/-- The rest of the first line. -/
def Body.line : Body → Str
  | .comment l => l
  | .energy l _ => l
  | .oper _ n _ => n
  | .coef _ l _ => l

/-- What follows the first line. -/
def Body.text : Body → Str
  | .comment _ => []
  | .energy _ x => numText x
  | .oper _ _ o => o.text
  | .coef _ _ t => t.flatMap fun s => s.flatMap VecT.text

def BlockT.text (b : BlockT) : Str := b.ws ++ b.body.letter :: (b.body.line ++ b.body.text)

/-- The letters of operators: singlet `s` and `p`, global `g`, doublet `d`, triplet `t`, orbital triplet `o`, quadruplet `q`. -/
def OperKind (k : Char) : Prop := k = 's' ∨ k = 'p' ∨ k = 'g' ∨ k = 'd' ∨ k = 't' ∨ k = 'o' ∨ k = 'q'

/-- The letters of tables of coefficients and the number of sets of tables: the coefficients of the chain (`z`: hopping and on-site energy),
those of superconducting chains (`Z`), those between the channels (`X`), and the input of the tridiagonalisation (`T`: energies and
couplings of both signs). -/
def TableKind (k : Char) (n : Nat) : Prop := (k = 'z' ∧ n = 2) ∨ (k = 'Z' ∧ n = 2) ∨ (k = 'X' ∧ n = 2) ∨ (k = 'T' ∧ n = 4)

/-- The number of operators of the chain for every channel: one for each kind of creation operator that the symmetry does not
relate to another one. -/
def chainOps (sym : Str) : Nat :=
  match sym with
  | ['U', '1'] => 2
  | ['S', 'U', '2'] => 2
  | ['D', 'B', 'L', 'S', 'U', '2'] => 2
  | ['N', 'O', 'N', 'E'] => 4
  | ['P'] => 4
  | ['P', 'P'] => 4
  | _ => 1

/-- The text is empty or begins on a new line. -/
def Nl (s : Str) : Prop := s.head? = some '\n' ∨ s = []

def Body.OK (P : Par) (channels : Nat) (subs : List SubT) : Body → Prop
  | .comment _ => True
  | .energy _ x => NumOK x
  | .oper k _ o => OperKind k ∧ o.OK P subs
  | .coef k _ t => TableKind k t.length ∧ ∀ s ∈ t, s.length = P.coeffactor * channels ∧ ∀ v ∈ s, v.OK true

/-- Blocks begin on a new line, their first line is a line, and what belongs to them follows on the next line. -/
def BlockT.OK (P : Par) (channels : Nat) (subs : List SubT) (b : BlockT) : Prop :=
  b.ws.head? = some '\n' ∧ Blank b.ws ∧ '\n' ∉ b.body.line ∧ Nl b.body.text ∧ b.body.OK P channels subs

/-- Comments between the parts of the file: each on its own line. -/
structure ComT where
  ws : Str
  line : Str
def ComT.text (c : ComT) : Str := c.ws ++ '#' :: c.line
def ComT.OK (c : ComT) : Prop :=
  c.ws.head? = some '\n' ∧ (∀ x ∈ c.ws, x = ' ' ∨ x = '\t' ∨ x = '\n') ∧ '\n' ∉ c.line

/-- Lines at the beginning of the file. -/
inductive HLine
  | ver
  | txt (l : Str)
def HLine.text : HLine → Str
  | .ver => "#!9\n".toList
  | .txt l => '#' :: (l ++ ['\n'])
/-- A comment that is not the version and does not mention the symmetry type. -/
def HLine.OK : HLine → Prop
  | .ver => True
  | .txt l => '\n' ∉ l ∧ l.head? ≠ some '!' ∧ ¬ "symtype".toList <:+: l

/-- A data file. -/
structure File where
  before : List HLine
  symPre : Str
  symGap : Str
  sym : Str
  after : List HLine
  ws : Str
  channels : Nat
  Nmax : Tok Nat
  nsubs : Tok Nat
  com1 : List ComT
  subs : List SubT
  com2 : List ComT
  opch : List (List ChainT)
  blocks : List BlockT
  trailer : Str

/-- The line with the symmetry type. -/
def File.symLine (f : File) : Str := f.symPre ++ ("symtype".toList ++ (f.symGap ++ f.sym))

def File.headText (f : File) : Str :=
  f.before.flatMap HLine.text ++ ((HLine.txt f.symLine).text ++ (f.after.flatMap HLine.text ++
    ((f.ws ++ natStr f.channels) ++ (natText f.Nmax ++ natText f.nsubs))))

def File.subsText (f : File) : Str := f.com1.flatMap ComT.text ++ f.subs.flatMap SubT.text

def File.opchText (f : File) : Str := f.com2.flatMap ComT.text ++ f.opch.flatMap fun c => c.flatMap ChainT.text

/-- The text of the file. -/
def File.text (f : File) : Str :=
  f.headText ++ (f.subsText ++ (f.opchText ++ (f.blocks.flatMap BlockT.text ++ f.trailer)))

/-- The last of the blocks that gives a value. -/
def lastOf {α : Type} (f : Body → Option α) (l : List BlockT) : Option α := l.reverse.findSome? fun b => f b.body

def operOf (k : Char) (n : Str) : Body → Option MatEl
  | .oper k' n' o => if k' = k ∧ n' = n then some o.val else none
  | _ => none

def energyOf : Body → Option Dec
  | .energy _ x => some x.v.val
  | _ => none

def coefOf (k : Char) : Body → Option (List (List (List Dec)))
  | .coef k' _ t => if k' = k then some (t.map fun s => s.map VecT.val) else none
  | _ => none

/-- The data in the file. Of several blocks of the same name the last one counts. -/
def File.val (f : File) : Data where
  header := ⟨f.sym, f.channels, f.Nmax.v, f.nsubs.v⟩
  subs := f.subs.map SubT.val
  opch := f.opch.map fun c => c.map fun x => x.op.val
  blocks := ⟨fun k n => lastOf (operOf k n) f.blocks, lastOf energyOf f.blocks, fun k => lastOf (coefOf k) f.blocks⟩

/-- The number of chain coefficients agrees with the header. -/
def File.ChainOK (f : File) : Prop :=
  ∃ xi zeta t ts, lastOf (coefOf 'z') f.blocks = some [xi, zeta] ∧ xi = t :: ts ∧ t.length = f.Nmax.v + 1

/-- A well-formed file. -/
structure File.OK (P : Par) (f : File) : Prop where
  before : ∀ l ∈ f.before, l.OK
  after : ∀ l ∈ f.after, l.OK
  ver : HLine.ver ∈ f.before ++ f.after
  symPre : f.symPre ≠ [] ∧ f.symPre.head? ≠ some '!'
  symGap : f.symGap.getLast? = some ' ' ∨ f.symGap.getLast? = some '\t'
  symNl : '\n' ∉ f.symLine
  symWord : f.sym ≠ [] ∧ ∀ c ∈ f.sym, c ≠ ' ' ∧ c ≠ '\t'
  sym : f.sym = P.sym
  dim : 0 < P.invdim
  coefs : 0 < P.coeffactor
  ws : Blank f.ws
  channels : 1 ≤ f.channels ∧ f.channels < 2 ^ 64
  Nmax : NatOK f.Nmax
  nsubs : NatOK f.nsubs
  com1 : ∀ c ∈ f.com1, c.OK
  subsLen : f.subs.length = f.nsubs.v
  subsNe : f.subs ≠ []
  subs : ∀ s ∈ f.subs, LabOK P s.lab ∧ s.vec.OK false
  subsNl : Nl (f.subs.flatMap SubT.text)
  subsDup : (f.subs.map fun s => labVal s.lab).Nodup
  com2 : ∀ c ∈ f.com2, c.OK
  opchLen : f.opch.length = f.channels
  opch : ∀ c ∈ f.opch, c.length = chainOps P.sym ∧ ∀ x ∈ c, x.OK P f.subs
  opchNl : Nl (f.opch.flatMap fun c => c.flatMap ChainT.text)
  blocks : ∀ b ∈ f.blocks, b.OK P f.channels f.subs
  trailer : Nl f.trailer ∧ Blank f.trailer
  chain : P.tricpp = true ∨ f.ChainOK

end Verif.DataFile
