import Verif.Arun.Model
/-!
# Specification of the results of `adapt`
-/

namespace Verif.Arun
open Verif.Tools Verif.Text Verif.Param Verif.Adapt MeasureTheory
open Verif.NrgChain (World FS Op after)

/-- The classical Runge-Kutta step for `y' = R(x, y)`. -/
noncomputable def rk (R : ℝ → ℝ → ℝ) (x y h : ℝ) : ℝ :=
  let k1 := h * R x y
  let k2 := h * R (x + h / 2) (y + k1 / 2)
  let k3 := h * R (x + h / 2) (y + k2 / 2)
  let k4 := h * R (x + h) (y + k3)
  (k1 + 2 * k2 + 2 * k3 + k4) / 6

/-- `q` follows from `p` by one such step of a length of at most `H`. -/
def Step (R : ℝ → ℝ → ℝ) (H : ℝ) (p q : ℝ × ℝ) : Prop := ∃ h, 0 < h ∧ h ≤ H ∧ q = (p.1 + h, p.2 + rk R p.1 p.2 h)

/-- A table of the solution of `y' = R(x, y)` with the initial value `y₀` at `x₀`: every point follows from the one before by Runge-Kutta steps; the points
are at `x₀ + i·step`, up to `10⁻¹⁰`. -/
structure Solution (q : Settings) (R : ℝ → ℝ → ℝ) (x0 y0 : ℝ) (t : Tab ℝ) : Prop where
  first : t[0]? = some (x0, y0)
  chain : t.IsChain (Relation.TransGen (Step R (max q.par.dxFine q.par.dxFast)))
  increasing : (t.map Prod.fst).Pairwise (· < ·)
  grid : ∀ (i : ℕ) (p : ℝ × ℝ), t[i]? = some p → p.1 ≤ x0 + i * q.par.outputStep ∧ x0 + i * q.par.outputStep - p.1 ≤ 1 / 10000000000

/-- `ρ` is the hybridisation function of the impurity at positive or negative frequencies in units of `bandrescale`: constant, or that of the file. -/
structure Hyb (W : World) (fs : FS) (q : Settings) (sign : Sign) (flat : Option ℝ) (ρ : ℝ → ℝ) : Prop where
  continuous : Continuous ρ
  unit : 0 < q.bandrescale
  const : ∀ γ, flat = some γ → 0 < γ ∧ ∀ w, ρ w = q.bandrescale * γ
  table : flat = none → ∃ T, NrgChain.loadSide W fs q.dos (decide (sign = .pos)) = .ok T ∧
    ∀ Δ : ℝ → ℝ, Good T → (∀ w, IsInterp T w (Δ w)) → ∀ w, ρ w = q.bandrescale * Δ (q.bandrescale * w)

/-- The right-hand side of the equation for the energies: `f log Λ - ∫ρ / (Λ^(2-x) ρ(f Λ^(2-x)))` with the integral over an interval of the mesh. -/
noncomputable def energyEq (Λ : ℝ) (ρ ε : ℝ → ℝ) (x y : ℝ) : ℝ :=
  Real.log Λ * y - (if Λ ^ (2 - x) * ρ (y * Λ ^ (2 - x)) = 0 then 0 else (∫ w in (ε (x + 1))..(ε x), ρ w) / (Λ ^ (2 - x) * ρ (y * Λ ^ (2 - x))))

/-- The right-hand side of the equation for the mesh. -/
noncomputable def meshEq (Λ A : ℝ) (ρ : ℝ → ℝ) (x y : ℝ) : ℝ := Real.log Λ * (y - A / ρ (y * Λ ^ (2 - x)))

/-- The text of a table. -/
def fileText (W : World) (t : Tab ℝ) : Str := t.flatMap fun e => W.fmt 16 (some e.1) ++ ' ' :: (W.fmt 16 (some e.2) ++ ['\n'])

/-- `t` is a table of the mesh computed by the search: for some `A`, it ends at the value that is expected there. -/
def Searched (q : Settings) (ρ : ℝ → ℝ) (t : Tab ℝ) : Prop :=
  ∃ A, A ≠ 0 ∧ Solution q (meshEq q.Lambda A ρ) 2 1 t ∧ ∃ e, t.getLast? = some e ∧ q.par.xmax ≤ e.1 ∧ |e.2 / (A / ρ 0) - 1| < q.eps

/-- `ε` is the mesh that was asked for: powers of `Λ`; or these with a factor that is taken from the file `GSOL.dat`, `GSOLNEG.dat`, or computed and written to this
file. With `hardgap` the mesh ends at the boundary. -/
structure MeshOf (W : World) (fs fs' : FS) (q : Settings) (sign : Sign) (ρ ε : ℝ → ℝ) : Prop where
  fixed : q.adapt = false → (∀ x, ε x = (1 - q.boundary.getD 0) * (if x ≤ 2 then 1 else q.Lambda ^ (2 - x)) + q.boundary.getD 0) ∧ fs' (gFile sign) = fs (gFile sign)
  adapted : q.adapt = true → ∃ (t : Tab ℝ) (g : ℝ → ℝ), Good t ∧ (∀ x, IsInterp t x (g x)) ∧
    (∀ x, ε x = (1 - q.boundary.getD 0) * (if x ≤ 2 then 1 else g x * q.Lambda ^ (2 - x)) + q.boundary.getD 0) ∧
    (q.loadg = true → NrgChain.loadG W fs (gFile sign) = .ok t ∧ fs' (gFile sign) = fs (gFile sign)) ∧
    (q.loadg = false → Searched q ρ t ∧ fs' (gFile sign) = some (fileText W t))

end Verif.Arun
