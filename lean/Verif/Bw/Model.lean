import Verif.Tools.LinInt
import Verif.Tools.Spectra
import Verif.Broad.Model
import Mathlib.Data.List.Sort
/-!
# Adaptive broadening (`tools/bw/bw.cc`)

Numbers are real.  Results of the C++ code that are not finite are separate
cases: a peak at frequency zero contributes nothing (`exp(-inf)`), a logarithmic
derivative that is not finite is replaced by zero (as in the code), the relative
deviation from a vanishing value exceeds any threshold unless it is `0/0`.
Underflow, rounding and the
sign of a frequency zero are not modelled.  The command line is that of `Verif.Cmd`, the
program as a whole is `Verif.Wrun`; messages on standard output are left out.
-/

namespace Verif.Bw
open Verif.Tools

/-- Ways to end early.  Assertions are checked in debugging builds only. -/
inductive Err
  | argument
  | openFailed
  | incomplete
  | assertFailed
  | findindex
  | undefined
  | fuel
  deriving DecidableEq, Repr

/-- The settings after `cmd_line`, `tools/bw/bw.cc:36-52`, with the default values
given there. -/
structure Opt where
  min : ℝ := 1 / 10000000
  max : ℝ := 2
  ratio : ℝ := 101 / 100
  iters : Int := 10
  trim : ℝ := -999
  positivity : Bool := false
  b0 : ℝ
  bmin : ℝ := -999
  q : ℝ := 1
  savemore : Bool := false
  saveall : Bool := false
  dyn : ℝ := -999
  one : Bool := false
  Nz : Int

/-- The checks in `cmd_line`, `tools/bw/bw.cc:143-153`. -/
noncomputable def check (o : Opt) : Except Err Unit := if 0 < o.b0 ∧ 1 ≤ o.Nz then .ok () else .error .argument

/-- `defaults`, `tools/bw/bw.cc:640-653`. -/
noncomputable def defaults (o : Opt) : Except Err Opt :=
  let trim := if o.trim < 0 then o.min * 10 else o.trim
  if 0 < o.dyn then .ok { o with bmin := if o.bmin < 0 then 0 else o.bmin, trim := trim }
  else
    let bmin := if o.bmin < 0 then o.ratio - 1 else o.bmin
    if bmin ≤ o.b0 then .ok { o with bmin := bmin, trim := trim } else .error .assertFailed

/-- A binary file: its numbers, and the number of bytes after the last of them. -/
structure Bin where
  data : List ℝ
  extra : Nat

/-- The file name, `tools/bw/bw.cc:170-175`; `none` is the name without directory. -/
def fileOf (o : Opt) (i : Nat) : Option Nat := if o.one ∧ o.Nz = 1 then none else some i

/-- `load`, `tools/bw/bw.cc:165-214`: the pairs of frequency and weight. -/
noncomputable def load (files : Option Nat → Option Bin) (f : Option Nat) : Except Err (List (ℝ × ℝ)) :=
  match files f with
  | none => .error .openFailed
  | some b => if b.extra = 0 ∧ b.data.length % 2 = 0 then .ok (points 1 1 b.data) else .error .incomplete

/-- `read_files` and `merge`, `tools/bw/bw.cc:216-257`; the merging is that of
the other tools. -/
noncomputable def readAll (files : Option Nat → Option Bin) (o : Opt) : Except Err (List (ℝ × ℝ)) :=
  match ((List.range o.Nz.toNat).map fun i : Nat => fileOf o (i + 1)).mapM (load files) with
  | .error x => .error x
  | .ok ls => .ok (mergeFiles ls)

/-- The loop of `make_mesh`, `tools/bw/bw.cc:310-314`: the points and the final
value of `z`. -/
noncomputable def up (max ratio : ℝ) : Nat → ℝ → Option (List ℝ × ℝ)
  | 0, _ => none
  | f + 1, z => if z < max then (up max ratio f (z * ratio)).map fun r => (z :: r.1, r.2) else some ([], z)

/-- `make_mesh`, `tools/bw/bw.cc:305-325`. -/
noncomputable def makeMesh (o : Opt) (fuel : Nat) : Except Err (List ℝ) :=
  if o.min < o.max ∧ 1 < o.ratio then
    match up o.max o.ratio fuel o.min with
    | none => .error .fuel
    | some (zs, z) => .ok (((zs ++ [z * o.ratio]).flatMap fun z => [z, -z]).insertionSort (· ≤ ·))
  else .error .assertFailed

/-- `bfnc`, `tools/bw/bw.cc:334-350`. -/
noncomputable def bfnc (E alpha omega : ℝ) : ℝ :=
  if omega = 0 then 0
  else Real.exp (-(Real.log (E / omega) / alpha - alpha / 4) ^ 2) / (alpha * |E| * Real.sqrt Real.pi)

/-- One value of the broadened function, `tools/bw/bw.cc:416-421`. -/
noncomputable def broadenAt (spec : List (ℝ × ℝ)) (b : List ℝ) (E : ℝ) : ℝ :=
  ((spec.zip b).map fun p => if (decide (E < 0) == decide (p.1.1 < 0)) then p.1.2 * bfnc E p.2 p.1.1 else 0).sum

/-- `broaden`, `tools/bw/bw.cc:405-429`. -/
noncomputable def broaden (o : Opt) (spec : List (ℝ × ℝ)) (mesh b : List ℝ) : List ℝ :=
  mesh.map fun E =>
    let y := broadenAt spec b E
    if y < 0 ∧ o.positivity then 1 / 10000000000000000 else y

/-- `integrate_a`, `tools/bw/bw.cc:259-277`: the loop. -/
noncomputable def integLoop : ℝ → ℝ × ℝ → List (ℝ × ℝ) → List ℝ
  | _, _, [] => []
  | sum, p, r :: rs =>
    let s := sum + (r.2 + p.2) * (r.1 - p.1) / 2
    s :: integLoop s r rs

noncomputable def integrate (mesh a : List ℝ) : List ℝ :=
  match mesh.zip a with
  | [] => []
  | p :: l => 0 :: integLoop 0 p l

/-- Consecutive elements. -/
def consec {α : Type} (l : List α) : List (α × α) := l.zip l.tail

/-- The value at frequency zero, `tools/bw/bw.cc:287-294`. -/
noncomputable def omega0 (mesh inta : List ℝ) : ℝ :=
  match (consec (mesh.zip inta)).find? fun p => decide (p.1.1 < 0) && decide (0 < p.2.1) with
  | some p => (p.1.2 + p.2.2) / 2
  | none => -1

/-- `combinations`, `tools/bw/bw.cc:279-303`. -/
noncomputable def combB (mesh inta : List ℝ) : List ℝ := inta.map (· - omega0 mesh inta)
noncomputable def combC (inta : List ℝ) : List ℝ := inta.map (inta.getLastD 0 - ·)

/-- The logarithmic derivative between two points, `tools/bw/bw.cc:499-518`. -/
noncomputable def dlog (p r : ℝ × ℝ) : ℝ :=
  if p.2 ≠ 0 ∧ 0 < r.2 / p.2 ∧ Real.log |r.1 / p.1| ≠ 0 then Real.log (r.2 / p.2) / Real.log |r.1 / p.1| else 0

/-- `calc_deriv`, `tools/bw/bw.cc:487-520`. -/
noncomputable def deriv (mesh f : List ℝ) : List ℝ := 0 :: (consec (mesh.zip f)).map fun p => dlog p.1 p.2

/-- `calc_b`, `tools/bw/bw.cc:474-485`. -/
noncomputable def calcB (o : Opt) (d1 d2 : List ℝ) : List ℝ :=
  (d1.zip d2).map fun p => o.b0 * (o.q * (1 / (o.q + |p.1|) + 1 / (o.q + |p.2|)) / 2)

/-- The loop of `recalc_b`, `tools/bw/bw.cc:633-637`, with the two interpolators.
`LinInt` of this file (`tools/bw/bw.cc:525-612`) is the class of
`tools/common/linint.hpp` without the check of the number of points. -/
noncomputable def recalcLoop (bmin : ℝ) (tp tn : Tab ℝ) : LinState ℝ → LinState ℝ → List ℝ → Except Err (List ℝ)
  | _, _, [] => .ok []
  | sp, sn, w :: ws =>
    match (if w < 0 then (linEval tn sn w).map fun r => (r.1, sp, r.2) else (linEval tp sp w).map fun r => (r.1, r.2, sn)) with
    | none => .error .findindex
    | some (v, sp, sn) =>
      if 0 < v then
        match recalcLoop bmin tp tn sp sn ws with
        | .error x => .error x
        | .ok vs => .ok ((if bmin < v then v else bmin) :: vs)
      else .error .assertFailed

/-- `recalc_b`, `tools/bw/bw.cc:614-638`. -/
noncomputable def recalcB (o : Opt) (spec : List (ℝ × ℝ)) (mesh bpos bneg : List ℝ) : Except Err (List ℝ) :=
  if mesh = [] then .error .undefined
  else recalcLoop o.bmin (mesh.zip bpos) (mesh.zip bneg) ⟨none, 0, 0, 0, 0, 0, false⟩ ⟨none, 0, 0, 0, 0, 0, false⟩
    (spec.map Prod.fst)

/-- Whether the value at a point deviates too much from the continuation of the
line through the last two points, `tools/bw/bw.cc:366-370,388-392`. -/
noncomputable def deviates (dyn : ℝ) (p2 p1 p : ℝ × ℝ) : Bool :=
  let y := p1.2 + (p2.2 - p1.2) / (p2.1 - p1.1) * (p.1 - p1.1)
  if p.2 = 0 then decide (y ≠ 0) else decide (dyn < |(p.2 - y) / p.2|)

/-- A point between two others, if there is one, `tools/bw/bw.cc:363,377,385,394`. -/
noncomputable def between (lo hi x : ℝ) : List ℝ := if lo < x ∧ x < hi then [x] else []

/-- The loop over the negative part, `tools/bw/bw.cc:365-380`. -/
noncomputable def negLoop (dyn : ℝ) : ℝ × ℝ → ℝ × ℝ → List (ℝ × ℝ) → List ℝ
  | _, _, [] => []
  | p2, p1, p :: r =>
    if p.1 < 0 then
      (if deviates dyn p2 p1 p then between p1.1 p.1 (-Real.sqrt (p.1 * p1.1)) else []) ++ p.1 :: negLoop dyn p1 p r
    else []

/-- The loop over the positive part, from the end, `tools/bw/bw.cc:387-397`. -/
noncomputable def posLoop (dyn : ℝ) : ℝ × ℝ → ℝ × ℝ → List (ℝ × ℝ) → List ℝ
  | _, _, [] => []
  | p2, p1, p :: r =>
    if 0 < p.1 then
      (if deviates dyn p2 p1 p then between p.1 p1.1 (Real.sqrt (p.1 * p1.1)) else []) ++ p.1 :: posLoop dyn p1 p r
    else []

/-- `refine_mesh`, `tools/bw/bw.cc:352-403`. -/
noncomputable def refine (dyn : ℝ) (mesh a : List ℝ) : Except Err (List ℝ) :=
  if mesh.length = a.length ∧ 6 ≤ mesh.length then
    match mesh.zip a, (mesh.zip a).reverse with
    | p0 :: p1 :: r, q0 :: q1 :: s =>
      .ok ((p0.1 :: between p0.1 p1.1 (-Real.sqrt (p0.1 * p1.1)) ++ p1.1 :: negLoop dyn p0 p1 r ++
        (q0.1 :: between q1.1 q0.1 (Real.sqrt (q0.1 * q1.1)) ++ q1.1 :: posLoop dyn q0 q1 s.dropLast)).insertionSort (· ≤ ·))
    | _, _ => .error .undefined
  else .error .assertFailed

/-- A file that has been written: what it contains, the number in its name, its
lines. -/
structure Saved where
  name : String
  iter : Nat
  lines : List (ℝ × ℝ)

/-- `save`, `tools/bw/bw.cc:449-472`. -/
noncomputable def save (name : String) (x y : List ℝ) (iter : Nat) (trim : ℝ) : Saved :=
  ⟨name, iter, (x.zip y).filter fun p => !(decide (trim ≠ 0) && decide (|p.1| < trim))⟩

/-- Between iterations: mesh, widths, the files written so far, `tools/bw/bw.cc:54-70`. -/
structure St where
  mesh : List ℝ
  b : List ℝ
  out : List Saved

/-- One iteration, `tools/bw/bw.cc:672-714`. -/
noncomputable def iteration (o : Opt) (spec : List (ℝ × ℝ)) (iter : Nat) (s : St) : Except Err St :=
  let a := broaden o spec s.mesh s.b
  let inta := integrate s.mesh a
  let intb := combB s.mesh inta
  let intc := combC inta
  let da := deriv s.mesh inta
  let db := deriv s.mesh intb
  let dc := deriv s.mesh intc
  let bpos := calcB o db dc
  let bneg := calcB o da db
  match recalcB o spec s.mesh bpos bneg with
  | .error x => .error x
  | .ok b =>
    let out := s.out ++
      (if o.savemore ∨ (iter : Int) = o.iters then [save "a" s.mesh a iter o.trim] else []) ++
      (if o.saveall then [save "inta" s.mesh inta iter 0, save "intb" s.mesh intb iter 0, save "intc" s.mesh intc iter 0,
        save "deriva" s.mesh da iter 0, save "derivb" s.mesh db iter 0, save "derivc" s.mesh dc iter 0,
        save "bpos" s.mesh bpos iter 0, save "bneg" s.mesh bneg iter 0] else []) ++
      (if o.savemore then [save "b" (spec.map Prod.fst) b iter o.trim] else [])
    if 0 < o.dyn then
      match refine o.dyn s.mesh a with
      | .error x => .error x
      | .ok mesh => .ok ⟨mesh, b, out⟩
    else .ok ⟨s.mesh, b, out⟩

/-- The main loop, `tools/bw/bw.cc:671-715`. -/
noncomputable def iterate (o : Opt) (spec : List (ℝ × ℝ)) : Nat → Nat → St → Except Err St
  | _, 0, s => .ok s
  | i, n + 1, s =>
    match iteration o spec i s with
    | .error x => .error x
    | .ok s' => iterate o spec (i + 1) n s'

/-- `main`, `tools/bw/bw.cc:655-723`. -/
noncomputable def main (o : Opt) (files : Option Nat → Option Bin) (fuel : Nat) : Except Err (List Saved) :=
  match check o with
  | .error x => .error x
  | .ok _ =>
    match defaults o with
    | .error x => .error x
    | .ok o =>
      match readAll files o with
      | .error x => .error x
      | .ok spec =>
        match makeMesh o fuel with
        | .error x => .error x
        | .ok mesh =>
          let b := spec.map fun _ => o.b0
          match iterate o spec 1 o.iters.toNat
              ⟨mesh, b, if o.savemore then [save "b" (spec.map Prod.fst) b 0 o.trim] else []⟩ with
          | .error x => .error x
          | .ok s => .ok s.out

end Verif.Bw
