import Verif.NrgChain.Parts
import Verif.Tools.InterpCont
import Verif.Adapt.OdeProps
/-!
# Specification of the coefficients of a Wilson chain
-/

namespace Verif.NrgChain
open Verif.Tools Verif.Text Verif.Param

/-- One number per line, with the precision of the tool. -/
def fileOf (W : World) (v : List ℝ) : Str := v.flatMap fun x => W.fmt 16 (some x) ++ ['\n']

/-- The `k`-th line of data of a file is the number `x`. -/
def NumberAt (W : World) (fs : FS) (fn : Str) (k : ℕ) (x : ℝ) : Prop :=
  ∃ t l, fs fn = some t ∧ (Table.dataLines t)[k]? = some l ∧ W.atof l = some x

/-- `ρ` is the hybridisation function for positive or negative frequencies, with the band edge at `1`: the constant `1/2` for the flat band, and
otherwise the function tabulated in the file `dos`, in units of `bandrescale`. -/
structure IsBand (W : World) (fs : FS) (q : State) (pos : Bool) (ρ : ℝ → ℝ) : Prop where
  continuous : Continuous ρ
  flat : q.band = "flat".toList → ∀ w, ρ w = 1 / 2
  table : q.band ≠ "flat".toList → 0 < q.bandrescale ∧ ∃ T, loadSide W fs (str q.params "dos" "Delta.dat".toList) pos = .ok T ∧
    ∀ Δ : ℝ → ℝ, Good T → (∀ w, IsInterp T w (Δ w)) → ∀ w, ρ w = q.bandrescale * Δ (q.bandrescale * w)

/-- `ε` is the mesh: powers of `Λ`, or these with the factor from a file if `adapt` is set. -/
structure IsMesh (W : World) (fs : FS) (q : State) (fn : Str) (ε : ℝ → ℝ) : Prop where
  standard : q.adapt = false → ∀ x, ε x = if x ≤ 2 then 1 else q.Lambda ^ (2 - x)
  adapted : q.adapt = true → q.band ≠ "flat".toList → ∃ (t : Tab ℝ) (g : ℝ → ℝ), loadG W fs fn = .ok t ∧ Good t ∧ (∀ x, IsInterp t x (g x)) ∧
    ∀ x, ε x = if x ≤ 2 then 1 else g x * q.Lambda ^ (2 - x)

/-- `E` gives the energies of the intervals: the formula for the flat band, or the function from a file. -/
structure IsEnergy (W : World) (fs : FS) (q : State) (fn : Str) (E : ℝ → ℝ) : Prop where
  flat : q.band = "flat".toList → ∀ x, 1 ≤ x → E x =
    if x ≤ 2 then 2 - x + (1 - q.Lambda ^ (1 - x)) / Real.log q.Lambda else (1 - 1 / q.Lambda) / Real.log q.Lambda * q.Lambda ^ (2 - x)
  table : q.band ≠ "flat".toList → ∃ (t : Tab ℝ) (f : ℝ → ℝ), loadG W fs fn = .ok t ∧ Good t ∧ (∀ x, IsInterp t x (f x)) ∧ ∀ x, E x = f x * q.Lambda ^ (2 - x)

/-- The coefficients are those of a tridiagonal form of the Hamiltonian of the bath `b` with `Nmax + 1` sites, in the units and with the factors that
were asked for. The first site is the orbital that couples to the impurity. -/
def IsChain (q : State) (b : Bath) (c : Channel) : Prop :=
  ∃ u xi zeta, Tridiagonal b (q.Nmax + 1) u xi zeta ∧ 0 < dot b.M b.u0 b.u0 ∧
    (∀ k, (u 0).p k * Real.sqrt (dot b.M b.u0 b.u0) = b.u0.p k ∧ (u 0).m k * Real.sqrt (dot b.M b.u0 b.u0) = b.u0.m k) ∧
    c.xi = ((List.range (q.Nmax + 1)).map fun n : ℕ => xi n * q.bandrescale /
      (if q.rescalexi then (1 - 1 / q.Lambda) / Real.log q.Lambda * q.Lambda ^ (1 - q.z - (n : ℝ) / 2) else 1)) ∧
    c.zeta = (List.range (q.Nmax + 1)).map fun n : ℕ => zeta n * q.bandrescale

/-- Whether the chain is computed. -/
def Chain (m : Mode) (q : State) : Prop := m = .loadAndTridiagonalize ∨ m = .calculate ∧ q.tri = true

/-- Whether the tables are computed, not read. -/
def Calculates (m : Mode) (q : State) : Prop := m = .saveOnly ∨ m = .calculate ∧ q.load = false

end Verif.NrgChain
