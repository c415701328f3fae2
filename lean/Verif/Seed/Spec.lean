import Verif.Seed.Model
import Verif.DataFile.Lemmas
/-!
# What a template of the file `data` is, and what its instance should be

Independent of the reading loops: a template as a structured object, with its text, and the data that should be found in the instantiated
file.
-/

namespace Verif.Seed

open Verif.Text
open Verif.Invar (Label)
open Verif.DataFile

/-! ## Lines -/

/-- A line without data: blank, or a comment. -/
inductive Junk
  | blank (ws : Str)
  | com (lead text : Str)

def Junk.line : Junk → Str
  | .blank ws => ws
  | .com lead t => lead ++ '#' :: t

def Junk.OK : Junk → Prop
  | .blank ws => Blank ws ∧ '\n' ∉ ws
  | .com lead t => Blank lead ∧ '\n' ∉ lead ∧ '\n' ∉ t

/-- The comments, each as what precedes and what follows the hash sign. -/
def coms (js : List Junk) : List (Str × Str) :=
  js.filterMap fun j => match j with | .com a b => some (a, b) | .blank _ => none

/-- A line with data, what precedes it, and the white space around it. -/
structure Ln where
  pre : List Junk
  lead : Str
  body : Str
  trail : Str

def Ln.lines (l : Ln) : List Str := l.pre.map Junk.line ++ [l.lead ++ (l.body ++ l.trail)]

structure Ln.OK (l : Ln) : Prop where
  pre : ∀ j ∈ l.pre, j.OK
  lead : Blank l.lead ∧ '\n' ∉ l.lead
  trail : Blank l.trail ∧ '\n' ∉ l.trail
  nl : '\n' ∉ l.body
  ne : l.body ≠ []
  first : ∀ c ∈ l.body.head?, isSpace c = false ∧ c ≠ '#'
  last : ∀ c ∈ l.body.getLast?, isSpace c = false

/-- A comment that gives a scale: the word SCALE between white space, and something. -/
def IsScale (t r : Str) : Prop := ∃ w, w ≠ [] ∧ Blank w ∧ t = w ++ ("SCALE".toList ++ r) ∧ Sep r

/-- Of these lines the last one that gives a scale has the number `x` in it. -/
def LastScale {K : Type} [Field K] (js : List Junk) (x : K) : Prop :=
  ∃ a lead t w l tail b, js = a ++ (Junk.com lead t) :: b ∧ IsScale t (w ++ (l.text ++ tail)) ∧ Blank w ∧ Lit.OK l ∧ Sep tail ∧
    num l.val = x ∧ ∀ lead' t' r, Junk.com lead' t' ∈ b → ¬ IsScale t' r

/-! ## Tokens on one line -/

/-- The first token has no white space in front of it. -/
def atStart {α : Type} (l : List (Tok α)) : List (Tok α) :=
  match l with
  | [] => []
  | t :: r => ⟨[], t.v⟩ :: r

/-- Separated by white space, on one line; the white space of the first token does not count. -/
def OneLine {α : Type} (l : List (Tok α)) : Prop := ∀ t ∈ l.tail, t.OK ∧ '\n' ∉ t.ws

/-- Quantum numbers. -/
def LabLine (P : Par) (l : LabT) : Prop := l.length = P.invdim ∧ OneLine l ∧ ∀ t ∈ l, inInt t.v

/-! ## The parts -/

variable {K : Type} [Field K] [LinearOrder K]

/-- A subspace: three lines; the number of states, the file with the Hamiltonian; the matrix in it, its eigenvalues and
eigenvectors (in the rows). -/
structure TSub (K : Type) where
  q : Ln
  z : Ln
  d : Ln
  lab : LabT
  dim : Nat
  gap : Str
  file : Str
  tail : Str
  H : List (List K)
  val : List K
  vec : Nat → Nat → K

def TSub.lines (s : TSub K) : List Str := s.q.lines ++ (s.z.lines ++ s.d.lines)
def TSub.junk (s : TSub K) : List Junk := s.q.pre ++ (s.z.pre ++ s.d.pre)

/-- A word. -/
def Word (w : Str) : Prop := w ≠ [] ∧ ∀ c ∈ w, isSpace c = false

structure TSub.OK (C : Ctx K) (s : TSub K) : Prop where
  lns : s.q.OK ∧ s.z.OK ∧ s.d.OK
  qBody : s.q.body = labText (atStart s.lab)
  lab : LabLine C.P s.lab
  zBody : (∀ c ∈ s.z.body, isDigit c = true) ∧ natValue s.z.body = s.dim
  dim : 0 < s.dim ∧ s.dim < 2 ^ 64
  dBody : s.d.body = "DIAG".toList ++ (s.gap ++ (s.file ++ s.tail))
  gap : s.gap ≠ [] ∧ Blank s.gap
  file : Word s.file
  tail : Sep s.tail
  eval : ∃ t, C.files s.file = some t ∧ Inst.evaluateMatrix C.E t = .ok ⟨s.dim, s.dim, s.H⟩
  diag : C.diag s.dim (entry s.H) = some (s.val, s.vec)
  len : s.val.length = s.dim
  sorted : s.val.Pairwise (· ≤ ·)

/-- Where the elements of a matrix come from: a file whose name begins with `o`, or lines with numbers. -/
inductive TMat (K : Type)
  | file (l : Ln) (m : List (List K))
  | inline (ls : List (Ln × List (Tok Lit)))

def TMat.lns : TMat K → List Ln
  | .file l _ => [l]
  | .inline ls => ls.map (·.1)

/-- The matrix. -/
def TMat.mat : TMat K → List (List K)
  | .file _ m => m
  | .inline ls => ls.map fun p => p.2.map fun t => num t.v.val

def TMat.OK (C : Ctx K) (r c : Nat) : TMat K → Prop
  | .file l m => l.OK ∧ l.body.head? = some 'o' ∧ ∃ t, C.files l.body = some t ∧ Inst.evaluateMatrix C.E t = .ok ⟨r, c, m⟩
  | .inline ls => ls.length = r ∧ ∀ p ∈ ls, p.1.OK ∧ p.1.body = (atStart p.2).flatMap numText ∧ p.2.length = c ∧ OneLine p.2 ∧ ∀ t ∈ p.2, t.v.OK

/-- Matrix elements between two subspaces. -/
structure TElem (K : Type) where
  p : Ln
  lab1 : LabT
  lab2 : LabT
  src : TMat K

def TElem.lns (e : TElem K) : List Ln := e.p :: e.src.lns

def TElem.OK (C : Ctx K) (subs : List (TSub K)) (e : TElem K) : Prop :=
  e.p.OK ∧ e.p.body = labText (atStart e.lab1) ++ labText e.lab2 ∧ LabLine C.P e.lab1 ∧ LabLine C.P e.lab2 ∧
    (∀ t ∈ e.lab2.head?, t.OK ∧ '\n' ∉ t.ws) ∧
    ∃ s1 ∈ subs, ∃ s2 ∈ subs, labVal s1.lab = labVal e.lab1 ∧ labVal s2.lab = labVal e.lab2 ∧ e.src.OK C s1.dim s2.dim

/-- An operator: first line, line with the number of matrices, matrices. -/
structure TOp (K : Type) where
  h : Ln
  c : Ln
  els : List (TElem K)

def TOp.lns (o : TOp K) : List Ln := o.h :: o.c :: o.els.flatMap TElem.lns

/-- The pairs of subspaces of an operator. -/
def TOp.pairs (o : TOp K) : List (Label × Label) := o.els.map fun e => (labVal e.lab1, labVal e.lab2)

def TOp.OK (C : Ctx K) (subs : List (TSub K)) (o : TOp K) : Prop :=
  o.h.OK ∧ o.c.OK ∧ (∀ x ∈ o.c.body, isDigit x = true) ∧ natValue o.c.body = o.els.length ∧ o.els.length < 2 ^ 64 ∧
    (∀ e ∈ o.els, e.OK C subs) ∧ o.pairs.Nodup

/-- An operator of the Wilson chain: the first line is `f` and two numbers. -/
structure TChain (K : Type) where
  op : TOp K
  i : Tok Nat
  j : Tok Nat

def TChain.OK (C : Ctx K) (subs : List (TSub K)) (f : TChain K) : Prop :=
  f.op.OK C subs ∧ f.op.h.body = 'f' :: (natText f.i ++ natText f.j) ∧ NatOK f.i ∧ NatOK f.j

/-- The blocks that follow. -/
inductive TBlock (K : Type)
  | energy (h x : Ln)
  | oper (k : Char) (name : Str) (o : TOp K)

def TBlock.lns : TBlock K → List Ln
  | .energy h x => [h, x]
  | .oper _ _ o => o.lns

def TBlock.OK (C : Ctx K) (subs : List (TSub K)) : TBlock K → Prop
  | .energy h x => h.OK ∧ x.OK ∧ h.body = ['e']
  | .oper k n o => OperKind k ∧ o.OK C subs ∧ o.h.body = k :: n

def junks (ls : List Ln) : List Junk := ls.flatMap Ln.pre
def lnLines (ls : List Ln) : List Str := ls.flatMap Ln.lines

/-- A template. After the blocks there are comments, and possibly a line that begins with `z`, `Z` or `T`; what follows that line does not
matter. -/
structure Template (K : Type) where
  h : Ln
  sites : Tok Nat
  nsubs : Tok Nat
  extra : Str
  scale : K
  subs : List (TSub K)
  chain : List (TChain K)
  blocks : List (TBlock K)
  endJunk : List Junk
  stop : Option (Str × Str × List Str)
  -- the lines at the beginning
  before : List HLine
  symPre : Str
  symGap : Str
  after : List HLine

def stopLines : Option (Str × Str × List Str) → List Str
  | none => []
  | some (lead, l, ls) => (lead ++ l) :: ls

def Template.lines (T : Template K) : List Str :=
  T.h.lines ++ (T.subs.flatMap TSub.lines ++ ((T.chain.flatMap fun f => lnLines f.op.lns) ++
    ((T.blocks.flatMap fun b => lnLines b.lns) ++ (T.endJunk.map Junk.line ++ stopLines T.stop))))

/-- The text of the template. -/
def Template.text (T : Template K) : Str := T.lines.flatMap fun l => l ++ ['\n']

/-- The line with the symmetry type. -/
def symLine (T : Template K) (sym : Str) : Str := T.symPre ++ ("symtype".toList ++ (T.symGap ++ sym))

/-- Comments that the main program skips: only blanks and tabs in front. -/
def PlainCom (c : Str × Str) : Prop := ∀ x ∈ c.1, x = ' ' ∨ x = '\t'

structure Template.OK (C : Ctx K) (T : Template K) : Prop where
  dim : 0 < C.P.invdim
  coef : C.P.coeffactor = 1
  nmax : C.nmax < 2 ^ 64 - 1
  xi : C.nmax < C.xi.length
  zeta : C.nmax < C.zeta.length
  h : T.h.OK
  hBody : T.h.body = natStr 1 ++ (natText T.sites ++ (natText T.nsubs ++ T.extra))
  sites : NatOK T.sites
  nsubs : NatOK T.nsubs
  extra : Sep T.extra
  -- the comments at the beginning are what the main program expects there
  head : (coms T.h.pre).map (fun c => c.1 ++ ('#' :: (c.2 ++ ['\n']))) =
    T.before.map HLine.text ++ (HLine.txt (symLine T C.P.sym)).text :: T.after.map HLine.text
  before : ∀ l ∈ T.before, l.OK
  after : ∀ l ∈ T.after, l.OK
  ver : HLine.ver ∈ T.before ++ T.after
  symPre : T.symPre ≠ [] ∧ T.symPre.head? ≠ some '!'
  symGap : T.symGap.getLast? = some ' ' ∨ T.symGap.getLast? = some '\t'
  symNl : '\n' ∉ symLine T C.P.sym
  symWord : C.P.sym ≠ [] ∧ ∀ c ∈ C.P.sym, c ≠ ' ' ∧ c ≠ '\t'
  -- subspaces
  count : T.subs.length = T.nsubs.v
  ne : T.subs ≠ []
  subs : ∀ s ∈ T.subs, s.OK C
  dup : (T.subs.map fun s => labVal s.lab).Nodup
  scale : ∀ s ∈ T.subs.head?, LastScale (T.h.pre ++ s.junk) T.scale
  pos : 0 < T.scale
  subComs : ∀ s ∈ T.subs, ∀ c ∈ coms s.junk, PlainCom c
  -- chain operators: one set; no comments between them
  chainLen : T.chain.length = chainOps C.P.sym
  chain : ∀ f ∈ T.chain, f.OK C T.subs
  chainComs : (∀ f ∈ T.chain, ∀ c ∈ coms (junks f.op.lns), PlainCom c) ∧ ∀ f ∈ T.chain.tail, coms (junks f.op.lns) = []
  -- blocks
  blocks : ∀ b ∈ T.blocks, b.OK C T.subs
  energy : ∃ h x, TBlock.energy h x ∈ T.blocks
  endJunk : ∀ j ∈ T.endJunk, j.OK
  stop : ∀ lead l ls, T.stop = some (lead, l, ls) → Blank lead ∧ '\n' ∉ lead ∧ '\n' ∉ l ∧ (∀ x ∈ ls, '\n' ∉ x) ∧
    (l.head? = some 'z' ∨ l.head? = some 'Z' ∨ l.head? = some 'T')

/-- The printed form of numbers is a decimal number, `lit p x` for `p` significant digits. -/
def Prints (C : Ctx K) (lit : Nat → K → Lit) : Prop := ∀ p x, C.fmt p x = (lit p x).text ∧ (lit p x).OK

/-! ## What should be in the file -/

/-- `e` is the lowest of the eigenvalues of all subspaces. -/
def IsGround (subs : List (TSub K)) (e : K) : Prop :=
  (∃ s ∈ subs, e ∈ s.val) ∧ ∀ s ∈ subs, ∀ x ∈ s.val, e ≤ x

/-- Matrix elements between eigenstates: `⟨i|O|j⟩ = Σ V₁(i,a) O(a,b) V₂(j,b)`. -/
def between (s1 s2 : TSub K) (O : Nat → Nat → K) (i j : Nat) : K :=
  ∑ a ∈ Finset.range s1.dim, ∑ b ∈ Finset.range s2.dim, s1.vec i a * O a b * s2.vec j b

/-- Very small numbers count as zero. -/
def chop (x : K) : K := if |x| ≤ 1 / 10 ^ 14 then 0 else x

/-- `m` are the printed matrix elements of `e` between the eigenstates of its subspaces. -/
def IsElem (lit : Nat → K → Lit) (subs : List (TSub K)) (e : TElem K) (m : (Label × Label) × List (List Dec)) : Prop :=
  m.1 = (labVal e.lab1, labVal e.lab2) ∧ ∃ s1 ∈ subs, ∃ s2 ∈ subs, labVal s1.lab = labVal e.lab1 ∧ labVal s2.lab = labVal e.lab2 ∧
    m.2 = (List.range s1.dim).map fun i => (List.range s2.dim).map fun j => (lit 18 (chop (between s1 s2 (entry e.src.mat) i j))).val

/-- The last operator of the given kind and name. -/
def lastOp (l : List (TBlock K)) (k : Char) (n : Str) : Option (TOp K) :=
  l.reverse.findSome? fun b => match b with | .oper k' n' o => if k' = k ∧ n' = n then some o else none | .energy _ _ => none

/-- `m` are the matrix elements of the operator `o`. -/
def IsOp (lit : Nat → K → Lit) (subs : List (TSub K)) (o : TOp K) (m : MatEl) : Prop := List.Forall₂ (IsElem lit subs) o.els m

/-- `D` are the data that belong to the template, if `e` is the energy of the ground state. -/
structure IsInstance (C : Ctx K) (lit : Nat → K → Lit) (T : Template K) (e : K) (D : Data) : Prop where
  header : D.header = ⟨C.P.sym, 1, C.nmax, T.subs.length⟩
  subs : D.subs = T.subs.map fun s => (labVal s.lab, s.val.map fun x => (lit 18 ((x - e) / T.scale)).val)
  chain : ∃ ms, D.opch = [ms] ∧ List.Forall₂ (fun f m => IsOp lit T.subs f.op m) T.chain ms
  opers : ∀ k n, Option.Rel (IsOp lit T.subs) (lastOp T.blocks k n) (D.blocks.oper k n)
  gs : D.blocks.gs = some (lit 18 e).val
  coef : D.blocks.coef 'z' = some [[(C.xi.take (C.nmax + 1)).map fun x => (lit 16 x).val], [(C.zeta.take (C.nmax + 1)).map fun x => (lit 16 x).val]]
  other : ∀ k, k ≠ 'z' → D.blocks.coef k = none

end Verif.Seed
