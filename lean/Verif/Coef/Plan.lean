import Verif.Coef.Check
import Verif.Oper.Tables
/-!
# Decomposing a table into site multiplets
-/

namespace Verif.Coef
open Verif.Invar Verif.Symm Verif.Oper

/-- How the combinations of a table are distributed over site multiplets: the kinds of
multiplets; for every multiplet its kind and the displacement of the quantum numbers
other than spins; for every combination the number of its multiplet and its position
there, packed into 16 bits as `64 * multiplet + position`. -/
structure Plan where
  mts : List MType
  inst : List (Nat × Label)
  loc : Nat

namespace Plan
variable (P : Plan)

/-- Multiplet and position of combination `i` (from 0). -/
def code (i : Nat) : Nat := (P.loc >>> (16 * i)) % 65536
def grp (i : Nat) : Nat := P.code i / 64
def pos (i : Nat) : Nat := P.code i % 64

/-- The kind of multiplet `a` and its displacement. -/
def kind (a : Nat) : Option (MType × Label) :=
  match P.inst[a]? with
  | some (m, b) => (P.mts[m]?).map (·, b)
  | none => none

end Plan

def spinTest : Test → Bool
  | .su2 => true
  | .su2T => true
  | _ => false

/-- Only the spins. -/
def spinPart : List Field → Label → Label
  | f :: fs, x :: xs => (if spinTest f.test then x else done1 f.type) :: spinPart fs xs
  | _, _ => []

/-- The tests of the quantum numbers other than spins. -/
def otherTri : List Field → Label → Label → Label → Bool
  | f :: fs, a :: as, b :: bs, c :: cs => (spinTest f.test || evalTest f.test a b c) && otherTri fs as bs cs
  | _, _, _, _ => true

/-- A sign, for a parity. -/
def signOk : QnType → Int → Bool
  | .multiplicative, x => x == 1 || x == -1
  | .additive, _ => true
  | .mod3, _ => false

def labelOk : List QnType → Label → Bool
  | [], [] => true
  | t :: ts, x :: xs => signOk t x && labelOk ts xs
  | _, _ => false

/-- The displacement a label expression stands for. -/
def dispOf (z : Bool) : List Field → LabelExpr → Option Label
  | [], [] => some []
  | f :: fs, c :: cs =>
    match f.type, c, dispOf z fs cs with
    | .additive, .plus x, some d => some (x :: d)
    | .additive, .const x, some d => if z then some (x :: d) else none
    | .multiplicative, .times x, some d => some (x :: d)
    | _, _, _ => none
  | _, _ => none

/-- The test of a field is one of its type. -/
def fieldOk' (f : Field) : Bool :=
  match f.type, f.test with
  | .additive, .none => true
  | .additive, .u1 => true
  | .additive, .su2 => true
  | .additive, .su2T => true
  | .multiplicative, .z2 => true
  | _, _ => false

/-- Displacements and operator labels of all targets. -/
def dispsOf (T : OpTable) : Option (List (Label × Label)) :=
  T.targets.mapM fun t => (dispOf (T.builtin.symtype == "NONE") T.builtin.sym.fields t.shift).map (·, t.iop)

/-! ### The checks -/

/-- A combination is what the plan says. -/
def combOk (fs : List Field) (P : Plan) (r : Label × Label) (i : Nat) : Bool :=
  match P.kind (P.grp i) with
  | some (m, base) =>
    match m.ins[P.pos i]? with
    | some a => r.1 == dmul (types fs) base a && (spinPart fs r.2 == m.qn && (otherTri fs (done (types fs)) r.1 r.2
      && (spinPart fs base == done (types fs) && (spinPart fs a == a && (labelOk (types fs) base && (r.2.length == fs.length
      && a.length == fs.length))))))
    | none => false
  | none => false

/-- Insertion into a list that is already almost sorted. -/
def insertN (x : Nat) : List Nat → List Nat
  | [] => [x]
  | y :: l => if Nat.ble x y then x :: y :: l else y :: insertN x l

def sortN : List Nat → List Nat
  | [] => []
  | x :: l => insertN x (sortN l)

def increasing : List Nat → Bool
  | x :: y :: l => Nat.blt x y && increasing (y :: l)
  | _ => true

/-- The position of a row: multiplet, the two positions there, and the factor. -/
def rowCode (P : Plan) (r : OpRow) : Nat := (P.code (r.i1 - 1) * 64 + P.pos (r.ip - 1)) * 4096 + r.k

def rowOk (P : Plan) (n : Nat) (r : OpRow) : Bool :=
  Nat.ble 1 r.i1 && (Nat.ble r.i1 n && (Nat.ble 1 r.ip && (Nat.ble r.ip n &&
    (Nat.beq (P.grp (r.i1 - 1)) (P.grp (r.ip - 1)) && Nat.blt r.k 4096))))

def tripleCode (a : Nat) (x : Nat × Nat × Nat) : Nat := ((a * 64 + x.1) * 64 + x.2.1) * 4096 + x.2.2

/-- The codes of the rows that the plan predicts for target `t`. -/
def expected (P : Plan) (t : Nat) : List Nat :=
  P.inst.zipIdx.flatMap fun p => match P.mts[p.1.1]? with
    | some m => ((m.rows[t]?).getD []).map (tripleCode p.2)
    | none => []

def beqN : List Nat → List Nat → Bool
  | [], [] => true
  | x :: l, y :: m => Nat.beq x y && beqN l m
  | _, _ => false

def targetOk (P : Plan) (n : Nat) (t : OpTarget) (i : Nat) : Bool :=
  match t.rows with
  | some rs => rs.all (rowOk P n) && beqN (sortN (rs.map (rowCode P))) (expected P i)
  | none => false

def planOk (T : OpTable) (P : Plan) : Bool :=
  T.builtin.sym.fields.all fieldOk' &&
  (T.builtin.sym.table.zipIdx.all (fun r => combOk T.builtin.sym.fields P r.1 r.2) &&
  (increasing (sortN ((List.range T.builtin.sym.table.length).map P.code)) &&
  (T.targets.zipIdx.all (fun t => targetOk P T.builtin.sym.table.length t.1 t.2) &&
  (P.mts.all (fun m => m.rows.length == T.targets.length && m.rows.all fun l => l.all fun x =>
    Nat.blt x.1 64 && (Nat.blt x.2.1 64 && Nat.blt x.2.2 4096)) &&
  match dispsOf T with
  | some ds => ds.all fun d => otherTri T.builtin.sym.fields (done (types T.builtin.sym.fields)) d.1 d.2 &&
      (labelOk (types T.builtin.sym.fields) d.1 && d.2.length == T.builtin.sym.fields.length)
  | none => false))))

end Verif.Coef
