import Verif.Oper.Spec
/-!
# Checks of the operator tables, evaluated by the kernel
-/

namespace Verif.Oper
open Verif.Invar Verif.Symm

/-- The component of the ancestor's label as an expression in that of the subspace. -/
def ancComp : QnType → Int → Comp
  | .additive, x => .plus x
  | .multiplicative, x => .times x
  | .mod3, x => .plus x

/-- Is the written component the wanted one?  `z`: the class without symmetry. -/
def sameComp (z : Bool) (got want : Comp) : Bool :=
  got == want || (z && (got == .const 0 && want == .plus 0))

def after : Comp → Comp → Option Comp
  | .plus a, .plus b => some (.plus (a + b))
  | .times a, .times b => some (.times (a * b))
  | .const a, .plus b => some (.const (a + b))
  | _, _ => none

/-- `got` is the label of the ancestor `x` of the label itself. -/
def isAnc (z : Bool) : List Field → LabelExpr → Label → Bool
  | [], [], [] => true
  | f :: fs, g :: gs, x :: xs => !(decide (f.type = .mod3)) && (sameComp z g (ancComp f.type x) && isAnc z fs gs xs)
  | _, _, _ => false

/-- `got` is the label of the ancestor `x` of the shifted label. -/
def isAncOf (z : Bool) : List Field → LabelExpr → LabelExpr → Label → Bool
  | [], [], [], [] => true
  | f :: fs, s :: ss, g :: gs, x :: xs => !(decide (f.type = .mod3)) && ((match after s (ancComp f.type x) with
      | some w => sameComp z g w
      | none => false) && isAncOf z fs ss gs xs)
  | _, _, _, _ => false

/-- The components an operator component can lead to. -/
def comps (f : Field) (c : Int) : List Comp :=
  match f.type with
  | .multiplicative => [.times c]
  | .mod3 => []
  | .additive =>
    if f.name ∈ ["SS", "II", "II1", "II2", "JJ"] then
      (List.range c.toNat).map fun k : Nat => .plus (c - 1 - 2 * (k : Int))
    else if f.name = "T" then (List.range (2 * c + 1).toNat).map fun k : Nat => .plus (c - (k : Int))
    else [.plus (-c)]

def shifts : List Field → Label → List LabelExpr
  | f :: fs, c :: cs => (comps f c).flatMap fun x => (shifts fs cs).map (x :: ·)
  | _, _ => [[]]

def sameExpr (z : Bool) : LabelExpr → LabelExpr → Bool
  | [], [] => true
  | g :: gs, w :: ws => sameComp z g w && sameExpr z gs ws
  | _, _ => false

def noSym (T : OpTable) : Bool := T.builtin.symtype == "NONE"

/-- The rows of one target. -/
def rowsOk (T : OpTable) (t : OpTarget) : Bool :=
  match t.rows with
  | none => false
  | some rs => rs.all fun r =>
      decide (1 ≤ r.i1) && (decide (1 ≤ r.ip) &&
      match T.builtin.sym.table[r.i1 - 1]?, T.builtin.sym.table[r.ip - 1]?, T.labs[r.a]?, T.labs[r.b]? with
      | some r1, some rp, some la, some lb =>
        isAnc (noSym T) T.builtin.sym.fields la r1.1 && isAncOf (noSym T) T.builtin.sym.fields t.shift lb rp.1
      | _, _, _, _ => false)

/-- The targets are those of the operator labels. -/
def coverOk (T : OpTable) : Bool :=
  T.targets.all fun t =>
    (t.iop.length == T.builtin.sym.fields.length) &&
    ((shifts T.builtin.sym.fields t.iop).any (sameExpr (noSym T) t.shift) &&
    (shifts T.builtin.sym.fields t.iop).all fun e =>
      T.targets.any fun t' => t'.iop == t.iop && sameExpr (noSym T) t'.shift e)

/-- Two target expressions that give different labels. -/
def apart : List Field → LabelExpr → LabelExpr → Bool
  | f :: fs, .plus a :: as, .plus b :: bs => a != b || apart fs as bs
  | f :: fs, .times a :: as, .times b :: bs => (decide (f.type = .multiplicative) && a != b) || apart fs as bs
  | _, _, _ => false

/-- Different targets of a function give different labels. -/
def apartOk (T : OpTable) : Bool :=
  decide (T.targets.Pairwise fun s t => apart T.builtin.sym.fields s.shift t.shift = true)

/-- Positions in `builtins` of the classes of the tables. -/
def builtinIdx : List Nat :=
  [0, 1, 2, 3, 4, 5, 3, 4, 5, 6, 7, 6, 7, 8, 8, 9, 9, 10, 11, 10, 11, 12, 12, 13, 14, 15, 16, 18,
  18, 19, 20, 21, 22, 19, 20, 21, 22, 24, 24, 25, 25, 25, 26, 26, 27, 28, 29, 27, 28, 29, 31, 31,
  32, 33, 34, 35, 36, 37, 38, 36, 37, 38, 40, 40, 41, 41, 42, 43, 42, 43, 44, 45, 44, 45, 46, 47,
  48, 49, 50]

theorem tables_builtins : opTables.map OpTable.builtin = builtinIdx.filterMap fun i => builtins[i]? := rfl

end Verif.Oper
