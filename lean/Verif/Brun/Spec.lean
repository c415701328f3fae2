import Verif.Brun.Model
import Verif.Zrun.Spec
/-!
# Broadening of the spectra of several calculations
-/

namespace Verif.Brun
open Verif.Zrun (freq weight sumRows)

/-- The peaks that `-l`, `-h`, `-P` and `-N` leave in. -/
def Kept (set : Cmd.BrSet) (x : ℝ) : Prop :=
  (set.low : ℝ) ≤ |x| ∧ (∀ h : ℚ, set.high = some h → |x| ≤ (h : ℝ)) ∧ (0 ≤ x → set.keeppos = true) ∧ (x < 0 → set.keepneg = true)

open Classical in
/-- A sum over the peaks that are kept, weight times `f` of the frequency, as mean over the calculations. -/
noncomputable def mean (set : Cmd.BrSet) (N : Nat) (rows : Nat → List (List ℝ)) (f : ℝ → ℝ) : ℝ :=
  sumRows N rows (fun r => if Kept set (freq r) then weight set.cols.col r * f (freq r) else 0) / N

/-- The mesh between `min` and `max`: `max`, `max/ratio`, … as long as these are above `min`, moved to the accumulation point `a`; for the sides requested; in order. -/
def Geometric (set : Cmd.BrSet) (m : List ℝ) : Prop :=
  ∃ n : Nat, 1 ≤ n ∧ (∀ k : Nat, (set.min : ℝ) < set.max / (set.ratio : ℝ) ^ k ↔ k < n) ∧ m.Pairwise (· ≤ ·) ∧
    let x := fun k : Nat => (set.accumulation : ℝ) + (set.max : ℝ) / (set.ratio : ℝ) ^ k * ((set.max - set.accumulation) / set.max)
    m.Perm ((if set.meshpos then (List.range n).map x else []) ++ if set.meshneg then (List.range n).map fun k : Nat => -x k else [])

/-- A command line with four or five operands: name, number of calculations, `alpha`, `T` and `omega0/T`. -/
def Asks (l : Cmd.Line) (n z a t : Text.Str) (w : ℚ) : Prop :=
  l.OK ['v', 'm', ':', 'M', ':', 'r', ':', 'o', '2', '3', 'n', 's', 'c', 'g', 'f', ':', 'x', ':', 'a', ':', 'l', ':', 'h', ':', 'P', 'N', 'A', 'B', 'L', ':'] ∧
  (l.operands = [n, z, a, t] ∧ w = 1 / 1000000000 ∨ ∃ u, l.operands = [n, z, a, t, u] ∧ w = Cmd.num u) ∧
  1 ≤ Cmd.int z ∧ 0 < Cmd.num a ∧ 0 < Cmd.num t ∧ 0 < w ∧
  (∀ g, Cmd.argOf 'f' l.options = some g → 0 < Cmd.num g) ∧ (∀ g, Cmd.argOf 'x' l.options = some g → 0 < Cmd.num g) ∧
  (Cmd.given 'B' l.options = false ∨ Cmd.given 'A' l.options = false)

/-- The right results on a mesh. Without `-f` and `-x` the value at `x` is the sum of the kernels `bfnc x ω`; these options apply one pass of convolution each to the values
on the mesh. `cumulative.dat`: the weight strictly below `x`. The last four: Fermi function `1/(1 + exp(-ω/T))`, Bose function `1/(1 - exp(-ω/T))` without the
peak at zero, and the same for `-ω`. -/
structure Right (set : Cmd.BrSet) (S : Broad.Settings) (T : ℝ) (N : Nat) (rows : Nat → List (List ℝ)) (m : List ℝ) (o : Out) : Prop where
  plain : set.finalGauss = none → set.finalDer = none → o.spec = m.map fun x => (x, mean set N rows fun y => Broad.bfnc S x y)
  gauss : ∀ g, set.finalGauss = some g → set.finalDer = none →
    o.spec = m.zip (Broad.convolve Broad.gaussianKernel (g * T) m (m.map fun x => mean set N rows fun y => Broad.bfnc S x y))
  der : ∀ g, set.finalGauss = none → set.finalDer = some g →
    o.spec = m.zip (Broad.convolve Broad.derfdKernel (g * T) m (m.map fun x => mean set N rows fun y => Broad.bfnc S x y))
  both : ∀ g d, set.finalGauss = some g → set.finalDer = some d →
    o.spec = m.zip (Broad.convolve Broad.derfdKernel (d * T) m (Broad.convolve Broad.gaussianKernel (g * T) m (m.map fun x => mean set N rows fun y => Broad.bfnc S x y)))
  cumulative : o.cumulative = if set.cumulative then some (m.map fun x => (x, mean set N rows fun y => if y < x then 1 else 0)) else none
  sums : o.sums = if set.sumrules then some {
      sum := mean set N rows fun _ => 1
      pos := mean set N rows fun y => if 0 < y then 1 else 0
      neg := mean set N rows fun y => if y < 0 then 1 else 0
      fermi := mean set N rows fun y => 1 / (1 + Real.exp (-y / T))
      bose := mean set N rows fun y => if y = 0 then 0 else 1 / (1 - Real.exp (-y / T))
      fermiInv := mean set N rows fun y => 1 / (1 + Real.exp (y / T))
      boseInv := mean set N rows fun y => if y = 0 then 0 else 1 / (1 - Real.exp (y / T)) } else none
  weight : o.weight = Broad.trapez m (o.spec.map Prod.snd)
  /-- weights that are not negative give a spectrum that is not negative -/
  nonneg : (∀ i, 1 ≤ i → i ≤ N → ∀ r ∈ rows i, 0 ≤ Zrun.weight set.cols.col r) → ∀ p ∈ o.spec, 0 ≤ p.2

end Verif.Brun
