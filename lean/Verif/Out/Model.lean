import Verif.Text.Model
import Verif.Num.Model
import Verif.Num.Props
import Verif.Out.Classes
import Mathlib.Data.List.Sort
/-!
# Output tables and the annotated level listing
(`c++/outfield.hpp`, `c++/output.hpp:64-120`, `c++/stats.hpp:60-66`,
`c++/measurements.hpp:157-162,179-186`)
-/

namespace Verif.Out
open Verif.Text Verif.Num

/-- `std::setw(width)` before a string, and the `>` alignment of `fmt::format`: pad
with spaces on the left; longer texts are not cut. -/
def setw (w : ℕ) (s : Str) : Str := List.replicate (w - s.length) ' ' ++ s

/-- `Outfield`, `c++/outfield.hpp:18-32`.  The width is that of the table. -/
structure Column where
  desc : Str
  value : Str
  deriving DecidableEq

/-- `Allfields`, `c++/outfield.hpp:34-76`.  Precision enters only through the text of
the numbers, which is an argument of `set`. -/
structure Fields where
  width : ℕ
  list : List Column
  deriving DecidableEq

/-- `Allfields::add` for one name, `c++/outfield.hpp:38-45`; `none` is a failed
assertion.  `position < size()` compares as unsigned, so negative positions other than
`-1` fail. -/
def Fields.add1 (t : Fields) (desc : Str) (pos : ℤ) : Option Fields :=
  if pos = -1 then some { t with list := t.list ++ [⟨desc, []⟩] }
  else if 0 ≤ pos ∧ pos < t.list.length then
    some { t with list := t.list.take pos.toNat ++ [⟨desc, []⟩] ++ t.list.drop pos.toNat }
  else none

/-- The constructor, `c++/outfield.hpp:50-52`. -/
def Fields.new (names : List Str) (width : ℕ) : Fields :=
  ⟨width, names.foldl (fun l d => l ++ [⟨d, []⟩]) []⟩

/-- `Allfields::add` for a list of names, `c++/outfield.hpp:46-49,53-56`. -/
def Fields.addMany (t : Fields) (more : List Str) (pos : ℤ) : Option Fields :=
  let m := (Fields.new more t.width).list
  if pos = -1 then some { t with list := t.list ++ m }
  else if 0 ≤ pos ∧ pos < t.list.length then
    some { t with list := t.list.take pos.toNat ++ m ++ t.list.drop pos.toNat }
  else none

/-- The loop of `Allfields::set`, `c++/outfield.hpp:67-75`, and `Outfield::set_value`,
`c++/outfield.hpp:25-27`; `text` is the number formatted with the precision of the
table.  `none` is the exception "Invalid field". -/
def setList (w : ℕ) (desc text : Str) : List Column → Option (List Column)
  | [] => none
  | f :: fs => if f.desc = desc then some ({ f with value := setw w text } :: fs)
    else (setList w desc text fs).map (f :: ·)

def Fields.set (t : Fields) (desc text : Str) : Option Fields :=
  (setList t.width desc text t.list).map fun l => { t with list := l }

/-- `save_header`, `c++/outfield.hpp:57-61` (without the line end). -/
def Fields.header (t : Fields) : Str := '#' :: t.list.flatMap fun f => setw t.width f.desc ++ [' ']

/-- `save_values`, `c++/outfield.hpp:62-66` (without the line end). -/
def Fields.row (t : Fields) : Str := ' ' :: t.list.flatMap fun f => setw t.width f.value ++ [' ']

/-- `TD_generic`, `c++/outfield.hpp:78-93`: the table and the lines written so far;
`none` until the file is opened. -/
structure Td where
  fields : Fields
  out : Option (List Str)

/-- `TD_generic::save_values`, `c++/outfield.hpp:86-92`. -/
def Td.save (t : Td) : Td :=
  { t with out := some ((t.out.getD [t.fields.header]) ++ [t.fields.row]) }

/-- The columns of `TD`, `c++/outfield.hpp:95-99`. -/
def tdBase : List Str := ["T".toList, "<E>".toList, "<E^2>".toList, "C".toList, "F".toList, "S".toList]

/-- `Stats::Stats`, `c++/stats.hpp:60-66`: the table `td` of a symmetry class. -/
def tdNew (c : TdClass) (width : ℕ) : Option Td :=
  ((Fields.new tdBase width).addMany c.declared 1).map fun f => ⟨f, none⟩

/-- A sequence of `set` calls; `v` gives the text for each column. -/
def setAll (v : Str → Str) : List Str → Fields → Option Fields
  | [], t => some t
  | d :: ds, t => (t.set d (v d)).bind (setAll v ds)

/-- `calculate_TD`, `c++/measurements.hpp:179-186`: one row. -/
def tdStep (c : TdClass) (t : Td) (v : Str → Str) : Option Td :=
  (setAll v (tdBase ++ c.assigned) t.fields).map fun f => Td.save { t with fields := f }

/-- The rows of a whole run. -/
def tdRun (c : TdClass) : List (Str → Str) → Td → Option Td
  | [], t => some t
  | v :: vs, t => (tdStep c t v).bind (tdRun c vs)

/-- The columns of `TD_FDM`, `c++/outfield.hpp:101-104`, and the order in which they are
set, `c++/measurements.hpp:157-161`. -/
def tdFdmBase : List Str := ["T".toList, "E_fdm".toList, "C_fdm".toList, "F_fdm".toList, "S_fdm".toList]
@[inherit_doc tdFdmBase] def tdFdmSets : List Str :=
  ["T".toList, "F_fdm".toList, "E_fdm".toList, "C_fdm".toList, "S_fdm".toList]

/-! ### `Annotated::dump` -/

section
variable {K : Type} [Field K] [LinearOrder K] [IsStrictOrderedRing K] {L : Type} [LinearOrder L]

/-- `operator<=` on `std::pair<double, Invar>`. -/
def pairLe (a b : K × L) : Prop := a.1 < b.1 ∨ (a.1 = b.1 ∧ a.2 ≤ b.2)

instance : DecidableRel (pairLe (K := K) (L := L)) := fun a b => inferInstanceAs (Decidable (_ ∨ _))

/-- `seznam` after sorting, `c++/output.hpp:86-90`.  `spectrum` holds the energies of
each subspace (`all_rel_zero`). -/
def seznam (spectrum : List (L × List K)) : List (K × L) :=
  (spectrum.flatMap fun p => p.2.map fun e => (e, p.1)).insertionSort pairLe

/-- The loop that extends the cut to the end of a cluster, `c++/output.hpp:95-97`. -/
def extend (tol : K) (l : List (K × L)) (len : ℕ) : ℕ :=
  match h : l[len]?, l[len - 1]? with
  | some a, some b => if fcmp3 a.1 b.1 tol = 0 then extend tol l (len + 1) else len
  | _, _ => len
termination_by l.length - len
decreasing_by
  have := (List.getElem?_eq_some_iff.mp h).1
  omega

/-- `len`, `c++/output.hpp:95-97`. -/
def cut (tol : K) (l : List (K × L)) (n : ℕ) : ℕ := extend tol l (min l.length n)

/-- The inner loop of the grouping, `c++/output.hpp:106`. -/
def sameGroup (tol e0 : K) (x : K × L) : Bool := fcmp3 x.1 e0 tol == 0

/-- The loop over groups, `c++/output.hpp:101-115`. -/
def groups (tol : K) : List (K × L) → List (List (K × L))
  | [] => []
  | x :: xs => (x :: xs).takeWhile (sameGroup tol x.1) :: groups tol ((x :: xs).dropWhile (sameGroup tol x.1))
termination_by l => l.length
decreasing_by
  have h : sameGroup tol x.1 x = true := by
    simp only [sameGroup, fcmp3, fcmp, sub_self, sgn]
    split_ifs <;> rfl
  rw [List.dropWhile_cons_of_pos h]
  have := (List.dropWhile_sublist (sameGroup tol x.1) (l := xs)).length_le
  simp only [List.length_cons]; omega

/-- `scaled_energy`, `c++/output.hpp:66-69`. -/
def scaledEnergy (dumpscaled dumpabs : Bool) (scale total dumpEscale e : K) : K :=
  (e * (if dumpscaled then 1 else scale) + (if dumpabs then total else 0)) / dumpEscale

/-- One line: the energy, the labels (in the order of their texts, `leS`) and, with
`dumpgroups`, the degeneracy. -/
structure Line (K L : Type) where
  energy : K
  labels : List L
  degeneracy : Option ℕ

/-- `Annotated::dump`, `c++/output.hpp:79-122`: `n` is `dumpannotated`. -/
def dump (sc : K → K) (mult : L → ℕ) (leS : L → L → Bool) (tol : K) (dumpgroups : Bool) (n : ℕ)
    (spectrum : List (L × List K)) : List (Line K L) :=
  if n = 0 then []
  else
    let l := seznam spectrum
    let listed := l.take (cut tol l n)
    if dumpgroups then
      (groups tol listed).map fun g =>
        ⟨sc ((g.head?.map Prod.fst).getD 0), (g.map Prod.snd).mergeSort leS, some ((g.map fun x => mult x.2).sum)⟩
    else listed.map fun x => ⟨sc x.1, [x.2], none⟩
end

end Verif.Out
