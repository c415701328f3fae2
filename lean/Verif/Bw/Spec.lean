import Verif.Bw.Model
import Verif.Tools.LinIntProps
import Mathlib.Algebra.BigOperators.Group.Finset.Basic
/-!
# Adaptive broadening: what the tool should do

A peak of weight `w` at `ω` contributes `w` times a normalised logarithmic
Gaussian (`Broad.logGauss`, the kernel of the other broadening tool) of its own
width.
-/

namespace Verif.Bw
open Verif.Tools

/-- The least width. -/
noncomputable def lower (o : Opt) : ℝ := if 0 ≤ o.bmin then o.bmin else if 0 < o.dyn then 0 else o.ratio - 1

/-- Output below this frequency is left out. -/
noncomputable def trimming (o : Opt) : ℝ := if 0 ≤ o.trim then o.trim else 10 * o.min

/-- Settings with which the tool can work. -/
structure Opt.OK (o : Opt) : Prop where
  min_pos : 0 < o.min
  min_max : o.min < o.max
  ratio_gt : 1 < o.ratio
  b0_pos : 0 < o.b0
  Nz_pos : 1 ≤ o.Nz
  q_pos : 0 < o.q
  lower_le : lower o ≤ o.b0
  dyn_mesh : 0 < o.dyn → o.min * o.ratio < o.max

/-- The files of the `Nz` calculations exist and hold pairs of numbers. -/
def FilesOK (o : Opt) (files : Option Nat → Option Bin) (data : Nat → List ℝ) : Prop :=
  ∀ i : Nat, 1 ≤ i → (i : Int) ≤ o.Nz → files (fileOf o i) = some ⟨data i, 0⟩ ∧ (data i).length % 2 = 0

/-- The peaks of one file. -/
noncomputable def peaksOf (d : List ℝ) : List (ℝ × ℝ) := (List.range (d.length / 2)).map fun k : Nat => (d.getD (2 * k) 0, d.getD (2 * k + 1) 0)

/-- The peaks of all calculations, averaged. -/
noncomputable def peaks (o : Opt) (data : Nat → List ℝ) : List (ℝ × ℝ) :=
  mergeFiles ((List.range o.Nz.toNat).map fun i : Nat => peaksOf (data (i + 1)))

/-- Peaks with widths. -/
noncomputable def shape (p : List (ℝ × ℝ)) (b : List ℝ) (x : ℝ) : ℝ :=
  ((p.zip b).map fun r => r.1.2 * Broad.logGauss r.2 x r.1.1).sum

/-- `x` is a point of the geometric mesh from `min` to beyond `max`: `n` points
below `max`, and one above, with a gap. -/
def InitialPoint (o : Opt) (n : Nat) (x : ℝ) : Prop :=
  (∃ k, k < n ∧ |x| = o.min * o.ratio ^ k) ∨ |x| = o.min * o.ratio ^ (n + 1)

/-- A written spectrum: the broadened peaks with widths `b` on a mesh. -/
structure Spectrum (o : Opt) (p : List (ℝ × ℝ)) (n : Nat) (b : List ℝ) (s : Saved) : Prop where
  widths : b.length = p.length ∧ ∀ w ∈ b, 0 < w ∧ lower o ≤ w ∧ w ≤ o.b0
  inc : (s.lines.map Prod.fst).Pairwise (· < ·)
  mesh : (∀ x ∈ s.lines.map Prod.fst, x ≠ 0 ∧ trimming o ≤ |x| ∧ |x| ≤ o.min * o.ratio ^ (n + 1)) ∧
    ∀ x, InitialPoint o n x → trimming o ≤ |x| → x ∈ s.lines.map Prod.fst
  values : ∀ l ∈ s.lines, l.2 = shape p b l.1 ∨ (o.positivity = true ∧ shape p b l.1 < 0 ∧ l.2 = 1 / 10 ^ 16)

/-! ## Widths from the spectrum -/

/-- Integral of the piecewise linear function with values `a` at `x` up to point `k`. -/
noncomputable def cum (x a : Nat → ℝ) (k : Nat) : ℝ := ∑ i ∈ Finset.range k, (a i + a (i + 1)) / 2 * (x (i + 1) - x i)

/-- Logarithmic derivative, zero where it is not defined. -/
noncomputable def slope (x f : Nat → ℝ) : Nat → ℝ
  | 0 => 0
  | k + 1 => if f k ≠ 0 ∧ 0 < f (k + 1) / f k ∧ Real.log |x (k + 1) / x k| ≠ 0 then
      Real.log (f (k + 1) / f k) / Real.log |x (k + 1) / x k| else 0

/-- The width from two logarithmic derivatives (Freyn and Florens, Eq. 7). -/
noncomputable def widthOf (b0 q d1 d2 : ℝ) : ℝ := b0 * ((q / (q + |d1|) + q / (q + |d2|)) / 2)

/-- The new widths follow from the spectrum `a` on the mesh `x`: at the frequency
of the peak, interpolate between mesh points the widths that follow from the
integral from frequency zero and the integral to the end of the same side.  `z` is
the last negative mesh point. -/
def NewWidths (o : Opt) (bmin : ℝ) (m a : List ℝ) (p : List (ℝ × ℝ)) (b : List ℝ) : Prop :=
  ∃ z, z + 1 < m.length ∧ m.getD z 0 < 0 ∧ 0 < m.getD (z + 1) 0 ∧
    let x := fun k => m.getD k 0
    let c := cum x fun k => a.getD k 0
    let c0 := (c z + c (z + 1)) / 2
    let fromLeft := slope x c
    let fromZero := slope x fun k => c k - c0
    let toRight := slope x fun k => c (m.length - 1) - c k
    let neg := m.zip ((List.range m.length).map fun k : Nat => widthOf o.b0 o.q (fromLeft k) (fromZero k))
    let pos := m.zip ((List.range m.length).map fun k : Nat => widthOf o.b0 o.q (fromZero k) (toRight k))
    List.Forall₂ (fun (r : ℝ × ℝ) w => ∃ v, w = max bmin v ∧
      ((r.1 < 0 ∧ IsInterp neg r.1 v) ∨ (0 ≤ r.1 ∧ IsInterp pos r.1 v))) p b

/-- The values of the spectrum on a mesh. -/
noncomputable def valuesOn (o : Opt) (p : List (ℝ × ℝ)) (m b : List ℝ) : List ℝ :=
  m.map fun x => if o.positivity = true ∧ shape p b x < 0 then 1 / 10 ^ 16 else shape p b x

/-- The mesh `m'` refines `m`: no point is lost, the range is the same, and without
the option for refinement nothing is added. -/
def Refines (o : Opt) (m m' : List ℝ) : Prop :=
  m'.Pairwise (· < ·) ∧ (∀ x ∈ m, x ∈ m') ∧ m'.head? = m.head? ∧ m'.getLast? = m.getLast? ∧ (o.dyn ≤ 0 → m' = m)

/-- Mesh and widths with which iteration `i` begins. -/
inductive Run (o : Opt) (p : List (ℝ × ℝ)) (n : Nat) : Nat → List ℝ → List ℝ → Prop
  | start (m : List ℝ) : m.Pairwise (· < ·) → (∀ x, x ∈ m ↔ InitialPoint o n x) → Run o p n 1 m (p.map fun _ => o.b0)
  | step (i : Nat) (m b m' b' : List ℝ) : Run o p n i m b → NewWidths o (lower o) m (valuesOn o p m b) p b' →
      Refines o m m' → Run o p n (i + 1) m' b'

end Verif.Bw
