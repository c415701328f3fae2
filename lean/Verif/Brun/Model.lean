import Verif.Zrun.Model
import Verif.Broad.Tool
/-!
# The program `broaden`

From the command line, the binary files `1/name`, …, `Nz/name` and (with `-L`) a text file with the mesh to `spec.dat`, `cumulative.dat` and the numbers printed.
Arithmetic is exact; where the code computes `0/0` there is a separate outcome. Options and files as in `Verif.Cmd` and `Verif.Zrun`.
-/

namespace Verif.Brun
open Verif.Text
open Verif.Zrun (Files Bin)
open Verif.Table (Dec.value readTable)

/-- How the program ends without a usable result. `data`: command line and binary files. `nomesh`, `badmesh`: the file of `-L` cannot be opened or read
(`c++/misc.hpp:200-216`). `bounds`: the assertions of `make_mesh` (`tools/broaden/broaden.hpp:114-115`). `endless`: its loop has not ended. `empty`: no points
(`tools/broaden/broaden.hpp:538`). `order`: the assertion of `trapez` (`tools/broaden/broaden.hpp:105`). `nan`: `spec.dat` is written, but a value in it is not a number. -/
inductive Fail
  | data (f : Zrun.Fail)
  | nomesh
  | badmesh
  | bounds
  | endless
  | empty
  | order
  | nan
  deriving DecidableEq

/-- What a run leaves: the file `spec.dat`, the file `cumulative.dat` (with `-c`), the integrals printed with `-s` and the weight printed at the end. -/
structure Out where
  spec : List (ℝ × ℝ)
  cumulative : Option (List (ℝ × ℝ))
  sums : Option Broad.Sums
  weight : ℝ

/-- `filter` (`tools/broaden/broaden.hpp:378-387`); without `-h` the upper limit is the largest number. -/
noncomputable def filter (set : Cmd.BrSet) (s : List (ℝ × ℝ)) : List (ℝ × ℝ) :=
  (s.map fun p =>
    let v := if |p.1| < (set.low : ℝ) then 0 else p.2
    let v := match set.high with
      | none => v
      | some h => if (h : ℝ) < |p.1| then 0 else v
    (p.1, v)).map fun p =>
    let v := if set.keeppos = false ∧ 0 ≤ p.1 then 0 else p.2
    let v := if set.keepneg = false ∧ p.1 < 0 then 0 else v
    (p.1, v)

/-- The values of `z` in the loop of `make_mesh` (`tools/broaden/broaden.hpp:118`); the first argument bounds the number of rounds. -/
noncomputable def down (min ratio : ℝ) : Nat → ℝ → Option (List ℝ)
  | 0, _ => none
  | f + 1, z => if min < z then (down min ratio f (z / ratio)).map (z :: ·) else some []

/-- `make_mesh` (`tools/broaden/broaden.hpp:112-125`). -/
noncomputable def makeMesh (set : Cmd.BrSet) (fuel : Nat) : Except Fail (List ℝ) :=
  if (set.min : ℝ) < set.max ∧ (1 : ℝ) < set.ratio then
    match down set.min set.ratio fuel set.max with
    | none => .error .endless
    | some zs => .ok (Broad.toolMesh set.max set.accumulation set.meshpos set.meshneg zs)
  else .error .bounds

/-- `load_mesh` (`tools/broaden/broaden.hpp:127-133`). -/
noncomputable def loadMesh (texts : Files Str) (name : Str) : Except Fail (List ℝ) :=
  match texts name with
  | none => .error .nomesh
  | some s =>
    match readTable s with
    | none => .error .badmesh
    | some t => .ok (t.map fun p => ((Dec.value p.1 : ℚ) : ℝ))

/-- The choice of the mesh (`tools/broaden/broaden.hpp:534-538`). -/
noncomputable def mesh (texts : Files Str) (fuel : Nat) (set : Cmd.BrSet) : Except Fail (List ℝ) :=
  match if set.mesh = [] then makeMesh set fuel else loadMesh texts set.mesh with
  | .error e => .error e
  | .ok [] => .error .empty
  | .ok (x :: m) => .ok (x :: m)

/-- The settings of the kernel (`tools/broaden/broaden.hpp:317-329`). -/
noncomputable def settings (c : Cmd.Broaden) : Broad.Settings :=
  ⟨(c.alpha : ℝ), (c.ratio0 : ℝ) * (c.T : ℝ), (c.set.accumulation : ℝ), c.set.normalization, c.set.gaussian⟩

/-- The logarithm of `0/ept` over `|0|`: `exp(-inf)/0`, that is `0/0` (`tools/broaden/broaden.hpp:445-448`); times a weight that may vanish. -/
def NotNumber (S : Broad.Settings) (x ept : ℝ) : Prop :=
  S.gaussian = false ∧ (Broad.shift S.accumulation x ept).1 = 0 ∧ (Broad.shift S.accumulation x ept).2 ≠ 0

/-- The final passes (`tools/broaden/broaden.hpp:541-542`). -/
noncomputable def passes (c : Cmd.Broaden) (m a : List ℝ) : List ℝ :=
  let a := match c.set.finalGauss with
    | none => a
    | some g => Broad.convolve Broad.gaussianKernel ((g : ℝ) * (c.T : ℝ)) m a
  match c.set.finalDer with
  | none => a
  | some g => Broad.convolve Broad.derfdKernel ((g : ℝ) * (c.T : ℝ)) m a

open Classical in
/-- `calc` behind the choice of the mesh (`tools/broaden/broaden.hpp:540-549`). -/
noncomputable def finish (c : Cmd.Broaden) (s : List (ℝ × ℝ)) (m : List ℝ) : Except Fail Out :=
  let a := passes c m (Broad.broaden (settings c) s m)
  if ¬ m.Pairwise (· ≤ ·) then .error .order
  else if ∃ x ∈ m, ∃ p ∈ s, NotNumber (settings c) x p.1 then .error .nan
  else .ok {
    spec := m.zip a
    cumulative := if c.set.cumulative then some (m.zip (Tools.cumulative m s 0)) else none
    sums := if c.set.sumrules then some (Broad.sumrules c.T s) else none
    weight := Broad.trapez m a }

/-- `calc` (`tools/broaden/broaden.hpp:529-550`). -/
noncomputable def compute (bins : Files (Bin ℝ)) (texts : Files Str) (fuel : Nat) (c : Cmd.Broaden) : Except Fail Out :=
  match Zrun.spectrum c.set.cols.one c.set.cols.nrcol c.set.cols.col c.Nz c.name bins with
  | .error e => .error (.data e)
  | .ok s =>
    match mesh texts fuel c.set with
    | .error e => .error e
    | .ok m => finish c (filter c.set s) m

/-- `main` of `broaden` (`tools/broaden/broaden.cc`). -/
noncomputable def broaden (bins : Files (Bin ℝ)) (texts : Files Str) (fuel : Nat) (argv : List Str) : Except Fail Out :=
  match Cmd.broadenMain argv with
  | .error e => .error (.data (.stop e))
  | .ok c => compute bins texts fuel c

end Verif.Brun
