import Verif.Adapt.Model
import Verif.Tools.LinIntProps
import Mathlib.Analysis.SpecialFunctions.Pow.Deriv
import Mathlib.Analysis.SpecialFunctions.Pow.Asymptotics
import Mathlib.Analysis.Calculus.MeanValue
import Mathlib.MeasureTheory.Integral.IntervalIntegral.FundThmCalculus
/-!
# C89: the solution of the discretisation equation represents the hybridisation function
-/

namespace Verif.Adapt

open Verif.Tools MeasureTheory Set Filter Topology

/-! ## The right-hand sides that the program computes -/

/-- The powers and the logarithm of `Λ`. -/
noncomputable def lam (Λ : ℝ) : Lam ℝ := ⟨fun x => Λ ^ x, Real.log Λ⟩

/-- The mesh: `1` up to `x = 2`, then `g(x) Λ^(2-x)`; squeezed into `[b, 1]`. -/
noncomputable def meshFn (Λ : ℝ) (g : ℝ → ℝ) (b x : ℝ) : ℝ := (1 - b) * (if x ≤ 2 then 1 else g x * Λ ^ (2 - x)) + b

/-- `g` and `b` are the function and the boundary of the mesh: `1` and `0` without table or boundary. -/
def MeshIs (m : Mesh ℝ) (g : ℝ → ℝ) (b : ℝ) : Prop :=
  (match m.g with
    | some t => Good t ∧ ∀ x, IsInterp t x (g x)
    | none => ∀ x, g x = 1) ∧
  (match m.boundary with
    | some c => b = c
    | none => b = 0)

/-- The tabulated functions are consistent. -/
structure ObjsOK (m : Mesh ℝ) (rho : Tab ℝ) (s : Objs ℝ) : Prop where
  hrho : Tools.Inv rho s.rho
  hg : ∀ t, m.g = some t → Tools.Inv t s.g
  hint1 : Tools.Inv rho s.int1
  hint2 : Tools.Inv rho s.int2

theorem eps_value {Λ : ℝ} {m : Mesh ℝ} {g : ℝ → ℝ} {b : ℝ} (hm : MeshIs m g b) {sg : LinState ℝ} (hs : ∀ t, m.g = some t → Inv t sg) (x : ℝ) :
    ∃ sg', eps (lam Λ) m sg x = some (meshFn Λ g b x, sg') ∧ ∀ t, m.g = some t → Inv t sg' := by
  obtain ⟨h1, h2⟩ := hm
  have key : ∀ sg', eps (lam Λ) m sg x =
      some ((match m.boundary with
        | some b => rescale b (if x ≤ 2 then 1 else g x * Λ ^ (2 - x))
        | none => if x ≤ 2 then 1 else g x * Λ ^ (2 - x)), sg') → eps (lam Λ) m sg x = some (meshFn Λ g b x, sg') := by
    intro sg' h
    rw [h]
    cases hb : m.boundary with
    | none =>
      rw [hb] at h2
      rw [h2]
      simp [meshFn]
    | some c =>
      rw [hb] at h2
      rw [h2]
      rfl
  cases hmg : m.g with
  | none =>
    rw [hmg] at h1
    refine ⟨sg, key sg ?_, fun t ht => by cases ht⟩
    unfold eps
    rw [hmg, h1 x]
    cases m.boundary <;> by_cases hx : x ≤ 2 <;> simp [hx, lam]
  | some t =>
    rw [hmg] at h1
    obtain ⟨v, s', e1, e2, e3⟩ := linEval_spec h1.1 (hs t hmg) x
    rw [e2.unique h1.1 (h1.2 x)] at e1
    refine ⟨s', key s' ?_, fun t' ht' => by cases ht'; exact e3⟩
    unfold eps
    rw [hmg]
    dsimp only
    rw [e1]
    cases m.boundary <;> by_cases hx : x ≤ 2 <;> simp [hx, lam]

/-- **C89.** The right-hand side for the energies that is computed from the tables, whatever was evaluated before: it is
`f log Λ - ∫ρ / (Λ^(2-x) ρ(f Λ^(2-x)))` with the integral over the interval of the mesh. -/
theorem rhsF_value {Λ : ℝ} {m : Mesh ℝ} {g : ℝ → ℝ} {b : ℝ} (hm : MeshIs m g b) {rho ti : Tab ℝ} {total : ℝ} (hrho : Good rho)
    (hti : trapez rho = some (ti, total)) {ρ : ℝ → ℝ} (hρ : ∀ x, IsInterp rho x (ρ x)) (hint : ∀ a c, IntervalIntegrable ρ volume a c)
    {s : Objs ℝ} (hs : ObjsOK m rho s) (x y : ℝ) :
    ∃ s', (rhsF (lam Λ) m rho ti).rhs s x y = some (Real.log Λ * y -
        (if Λ ^ (2 - x) * ρ (y * Λ ^ (2 - x)) = 0 then 0
         else (∫ w in (meshFn Λ g b (x + 1))..(meshFn Λ g b x), ρ w) / (Λ ^ (2 - x) * ρ (y * Λ ^ (2 - x)))), s') ∧ ObjsOK m rho s' := by
  obtain ⟨sg1, a1, a2⟩ := eps_value (Λ := Λ) hm hs.hg x
  obtain ⟨sg2, b1, b2⟩ := eps_value (Λ := Λ) hm a2 (x + 1)
  obtain ⟨s2, c1, c2⟩ := intEval_integral hrho hti hρ hs.hint2 (meshFn Λ g b x)
  obtain ⟨s1, d1, d2⟩ := intEval_integral hrho hti hρ hs.hint1 (meshFn Λ g b (x + 1))
  obtain ⟨v, sr, e1, e2, e3⟩ := linEval_spec hrho hs.hrho (y * Λ ^ (2 - x))
  rw [e2.unique hrho (hρ _)] at e1
  refine ⟨⟨sr, sg2, s1, s2⟩, ?_, ⟨e3, b2, d2, c2⟩⟩
  have hi : (∫ w in (rho.x 0)..(meshFn Λ g b x), ρ w) - (∫ w in (rho.x 0)..(meshFn Λ g b (x + 1)), ρ w) =
      ∫ w in (meshFn Λ g b (x + 1))..(meshFn Λ g b x), ρ w := intervalIntegral.integral_interval_sub_left (hint _ _) (hint _ _)
  have hp : (lam Λ).pow (2 - x) = Λ ^ (2 - x) := rfl
  have hl : (lam Λ).logL = Real.log Λ := rfl
  simp only [rhsF, a1, b1, c1, d1, hp, hl, e1, Option.bind_eq_bind, Option.bind_some, Option.pure_def, hi]

/-- **C89.** The right-hand side for the mesh: `(g - A/ρ(g Λ^(2-x))) log Λ`. -/
theorem rhsG_value {Λ A : ℝ} {rho : Tab ℝ} (hrho : Good rho) {ρ : ℝ → ℝ} (hρ : ∀ x, IsInterp rho x (ρ x)) {s : LinState ℝ} (hs : Inv rho s)
    (x y : ℝ) : ∃ s', (rhsG (lam Λ) A rho).rhs s x y = some (Real.log Λ * (y - A / ρ (y * Λ ^ (2 - x))), s') ∧ Inv rho s' := by
  obtain ⟨v, sr, e1, e2, e3⟩ := linEval_spec hrho hs (y * Λ ^ (2 - x))
  rw [e2.unique hrho (hρ _)] at e1
  refine ⟨sr, ?_, e3⟩
  have hp : (lam Λ).pow (2 - x) = Λ ^ (2 - x) := rfl
  have hl : (lam Λ).logL = Real.log Λ := rfl
  simp only [rhsG, hp, hl, e1, Option.bind_eq_bind, Option.bind_some, Option.pure_def]

/-! ## Solutions -/

/-- `f` solves the equation for the energies on `[1, X]` with the initial value of the program: right derivatives, so that kinks of the mesh are
allowed. -/
structure SolvesF (Λ : ℝ) (ρ ε f : ℝ → ℝ) (X : ℝ) : Prop where
  init : f 1 = 1 / Λ
  cont : ContinuousOn f (Icc 1 X)
  eqn : ∀ x ∈ Ico 1 X, HasDerivWithinAt f
    (Real.log Λ * f x - (∫ w in (ε (x + 1))..(ε x), ρ w) / (Λ ^ (2 - x) * ρ (f x * Λ ^ (2 - x)))) (Ici x) x
  pos : ∀ x ∈ Ico 1 X, ρ (f x * Λ ^ (2 - x)) ≠ 0

/-- `g` solves the equation for the mesh on `[2, X]`. -/
structure SolvesG (Λ A : ℝ) (ρ g : ℝ → ℝ) (X : ℝ) : Prop where
  init : g 2 = 1
  cont : ContinuousOn g (Icc 2 X)
  eqn : ∀ x ∈ Ico 2 X, HasDerivWithinAt g (Real.log Λ * (g x - A / ρ (g x * Λ ^ (2 - x)))) (Ici x) x
  pos : ∀ x ∈ Ico 2 X, ρ (g x * Λ ^ (2 - x)) ≠ 0

/-- The energy that represents the interval at `x`. -/
noncomputable def energy (Λ : ℝ) (f : ℝ → ℝ) (x : ℝ) : ℝ := f x * Λ ^ (2 - x)

theorem hasDerivAt_scale {Λ : ℝ} (hΛ : 0 < Λ) (x : ℝ) : HasDerivAt (fun x : ℝ => Λ ^ (2 - x)) (-(Real.log Λ * Λ ^ (2 - x))) x := by
  have h1 : HasDerivAt (fun x : ℝ => 2 - x) (-1) x := by simpa using (hasDerivAt_id x).const_sub 2
  have h2 := h1.const_rpow hΛ
  refine h2.congr_deriv ?_
  ring

theorem SolvesF.energy_deriv {Λ : ℝ} (hΛ : 0 < Λ) {ρ ε f : ℝ → ℝ} {X : ℝ} (h : SolvesF Λ ρ ε f X) {x : ℝ} (hx : x ∈ Ico 1 X) :
    HasDerivWithinAt (energy Λ f) (-(∫ w in (ε (x + 1))..(ε x), ρ w) / ρ (energy Λ f x)) (Ici x) x := by
  have h1 := (h.eqn x hx).mul (hasDerivAt_scale hΛ x).hasDerivWithinAt
  refine h1.congr_deriv ?_
  have hp : Λ ^ (2 - x) ≠ 0 := (Real.rpow_pos_of_pos hΛ _).ne'
  have hr := h.pos x hx
  unfold energy
  field_simp
  ring

theorem continuous_scale {Λ : ℝ} (hΛ : 0 < Λ) : Continuous fun x : ℝ => Λ ^ (2 - x) :=
  continuous_iff_continuousAt.mpr fun x => (hasDerivAt_scale hΛ x).continuousAt

theorem energy_cont {Λ : ℝ} (hΛ : 0 < Λ) {f : ℝ → ℝ} {s : Set ℝ} (hf : ContinuousOn f s) : ContinuousOn (energy Λ f) s :=
  hf.mul (continuous_scale hΛ).continuousOn

theorem energy_one {Λ : ℝ} (hΛ : 0 < Λ) {f : ℝ → ℝ} (h : f 1 = 1 / Λ) : energy Λ f 1 = 1 := by
  unfold energy
  rw [h, show (2 : ℝ) - 1 = 1 by norm_num, Real.rpow_one]
  field_simp

/-- **C89.** The weight below the energy that represents the interval at `x` is the mean of the weights below the points of the mesh between `x` and
`x + 1`. -/
theorem energy_closed_form {Λ : ℝ} (hΛ : 1 < Λ) {ρ ε f : ℝ → ℝ} {X : ℝ} (hρ : Continuous ρ) (hε : Continuous ε) (hε1 : ∀ x ≤ 2, ε x = 1)
    (h : SolvesF Λ ρ ε f X) {x : ℝ} (hx : x ∈ Icc 1 X) :
    ∫ w in (0)..(energy Λ f x), ρ w = ∫ t in x..(x + 1), ∫ w in (0)..(ε t), ρ w := by
  have hΛ0 : 0 < Λ := by linarith
  have hR : ∀ u, HasDerivAt (fun u => ∫ w in (0)..u, ρ w) (ρ u) u := fun u =>
    intervalIntegral.integral_hasDerivAt_right (hρ.intervalIntegrable _ _) (hρ.stronglyMeasurableAtFilter _ _) hρ.continuousAt
  have hRc : Continuous (fun u => ∫ w in (0)..u, ρ w) := continuous_iff_continuousAt.mpr fun u => (hR u).continuousAt
  set r : ℝ → ℝ := fun t => ∫ w in (0)..(ε t), ρ w with hr
  have hrc : Continuous r := hRc.comp hε
  have hI : ∀ u, HasDerivAt (fun u => ∫ t in (0)..u, r t) (r u) u := fun u =>
    intervalIntegral.integral_hasDerivAt_right (hrc.intervalIntegrable _ _) (hrc.stronglyMeasurableAtFilter _ _) hrc.continuousAt
  have hJ : ∀ u, HasDerivAt (fun u => ∫ t in u..(u + 1), r t) (r (u + 1) - r u) u := by
    intro u
    have h1 : HasDerivAt (fun u : ℝ => ∫ t in (0)..(u + 1), r t) (r (u + 1)) u := (hI (u + 1)).comp_add_const u 1
    have h2 := h1.sub (hI u)
    refine h2.congr_of_eventuallyEq (Eventually.of_forall fun v => ?_)
    exact (intervalIntegral.integral_interval_sub_left (hrc.intervalIntegrable _ _) (hrc.intervalIntegrable _ _)).symm
  set H : ℝ → ℝ := fun u => (∫ w in (0)..(energy Λ f u), ρ w) - ∫ t in u..(u + 1), r t with hH
  have hHc : ContinuousOn H (Icc 1 X) := by
    refine (hRc.comp_continuousOn (energy_cont hΛ0 h.cont)).sub ?_
    exact (continuous_iff_continuousAt.mpr fun u => (hJ u).continuousAt).continuousOn
  have hHd : ∀ u ∈ Ico 1 X, HasDerivWithinAt H 0 (Ici u) u := by
    intro u hu
    have h1 := (hR (energy Λ f u)).comp_hasDerivWithinAt u (h.energy_deriv hΛ0 hu)
    have h2 := h1.sub (hJ u).hasDerivWithinAt
    refine h2.congr_deriv ?_
    have hne : ρ (energy Λ f u) ≠ 0 := h.pos u hu
    have hW : (∫ w in (ε (u + 1))..(ε u), ρ w) = r u - r (u + 1) :=
      (intervalIntegral.integral_interval_sub_left (hρ.intervalIntegrable _ _) (hρ.intervalIntegrable _ _)).symm
    rw [hW]
    field_simp
    ring
  have hconst := constant_of_has_deriv_right_zero hHc hHd x hx
  have h1 : H 1 = 0 := by
    have e : ∫ t in (1 : ℝ)..(1 + 1), r t = ∫ t in (1 : ℝ)..(1 + 1), ∫ w in (0)..(1 : ℝ), ρ w := by
      refine intervalIntegral.integral_congr fun t ht => ?_
      rw [uIcc_of_le (by norm_num)] at ht
      simp only [hr]
      rw [hε1 t (by linarith [ht.2])]
    simp only [hH]
    rw [energy_one hΛ0 h.init, e, intervalIntegral.integral_const]
    simp
  rw [h1] at hconst
  exact sub_eq_zero.mp hconst

/-- **C89.** For a positive hybridisation function and a decreasing mesh, the energy that represents an interval lies in the interval, and the
energies decrease. -/
theorem energy_in_interval {Λ : ℝ} (hΛ : 1 < Λ) {ρ ε f : ℝ → ℝ} {X : ℝ} (hρ : Continuous ρ) (hpos : ∀ w, 0 < ρ w) (hε : Continuous ε)
    (hε1 : ∀ x ≤ 2, ε x = 1) (hanti : Antitone ε) (h : SolvesF Λ ρ ε f X) {x : ℝ} (hx : x ∈ Icc 1 X) :
    ε (x + 1) ≤ energy Λ f x ∧ energy Λ f x ≤ ε x := by
  have hcf := energy_closed_form hΛ hρ hε hε1 h hx
  have hmono : StrictMono (fun u => ∫ w in (0)..u, ρ w) := by
    intro a b hab
    have := intervalIntegral.integral_interval_sub_left (μ := volume) (hρ.intervalIntegrable 0 b) (hρ.intervalIntegrable 0 a)
    have hp := intervalIntegral.intervalIntegral_pos_of_pos (hρ.intervalIntegrable a b) hpos hab
    dsimp only
    linarith
  have hRc : Continuous (fun u => ∫ w in (0)..u, ρ w) :=
    continuous_iff_continuousAt.mpr fun u => (intervalIntegral.integral_hasDerivAt_right (hρ.intervalIntegrable _ _)
      (hρ.stronglyMeasurableAtFilter _ _) hρ.continuousAt : HasDerivAt (fun u => ∫ w in (0)..u, ρ w) (ρ u) u).continuousAt
  have hrc : Continuous fun t => ∫ w in (0)..(ε t), ρ w := hRc.comp hε
  have hlow : (∫ t in x..(x + 1), ∫ w in (0)..(ε (x + 1)), ρ w) ≤ ∫ t in x..(x + 1), ∫ w in (0)..(ε t), ρ w :=
    intervalIntegral.integral_mono_on (by linarith) (continuous_const.intervalIntegrable _ _) (hrc.intervalIntegrable _ _)
      fun t ht => hmono.monotone (hanti ht.2)
  have hup : (∫ t in x..(x + 1), ∫ w in (0)..(ε t), ρ w) ≤ ∫ t in x..(x + 1), ∫ w in (0)..(ε x), ρ w :=
    intervalIntegral.integral_mono_on (by linarith) (hrc.intervalIntegrable _ _) (continuous_const.intervalIntegrable _ _)
      fun t ht => hmono.monotone (hanti ht.1)
  rw [intervalIntegral.integral_const] at hlow hup
  simp only [add_sub_cancel_left, one_smul] at hlow hup
  rw [← hcf] at hlow hup
  exact ⟨hmono.le_iff_le.mp hlow, hmono.le_iff_le.mp hup⟩

/-- **C89.** The weights of the intervals, placed at their energies, reproduce the hybridisation function: for every test
function, the sum over `x` between `x₁` and `x₂` is the integral over the energies. -/
theorem weights_reproduce {Λ : ℝ} (hΛ : 1 < Λ) {ρ ε f : ℝ → ℝ} {X : ℝ} (hρ : Continuous ρ) (hε : Continuous ε)
    (h : SolvesF Λ ρ ε f X) {q : ℝ → ℝ} (hq : Continuous q) {x₁ x₂ : ℝ} (h1 : 1 ≤ x₁) (h12 : x₁ ≤ x₂) (h2 : x₂ ≤ X) :
    ∫ x in x₁..x₂, (∫ w in (ε (x + 1))..(ε x), ρ w) * q (energy Λ f x) = ∫ w in (energy Λ f x₂)..(energy Λ f x₁), ρ w * q w := by
  have hΛ0 : 0 < Λ := by linarith
  have hρq : Continuous fun w => ρ w * q w := hρ.mul hq
  have hQ : ∀ u, HasDerivAt (fun u => ∫ w in (0)..u, ρ w * q w) (ρ u * q u) u := fun u =>
    intervalIntegral.integral_hasDerivAt_right (hρq.intervalIntegrable _ _) (hρq.stronglyMeasurableAtFilter _ _) hρq.continuousAt
  have hQc : Continuous (fun u => ∫ w in (0)..u, ρ w * q w) := continuous_iff_continuousAt.mpr fun u => (hQ u).continuousAt
  have hRc : Continuous (fun u => ∫ w in (0)..u, ρ w) :=
    continuous_iff_continuousAt.mpr fun u => (intervalIntegral.integral_hasDerivAt_right (hρ.intervalIntegrable _ _)
      (hρ.stronglyMeasurableAtFilter _ _) hρ.continuousAt : HasDerivAt (fun u => ∫ w in (0)..u, ρ w) (ρ u) u).continuousAt
  have hW : (fun x => ∫ w in (ε (x + 1))..(ε x), ρ w) = fun x => (∫ w in (0)..(ε x), ρ w) - ∫ w in (0)..(ε (x + 1)), ρ w := by
    funext x
    exact (intervalIntegral.integral_interval_sub_left (hρ.intervalIntegrable _ _) (hρ.intervalIntegrable _ _)).symm
  have hWc : Continuous fun x => ∫ w in (ε (x + 1))..(ε x), ρ w := by
    rw [hW]
    exact (hRc.comp hε).sub (hRc.comp (hε.comp (continuous_id.add continuous_const)))
  have hEc : ContinuousOn (energy Λ f) (Icc x₁ x₂) := energy_cont hΛ0 (h.cont.mono (Icc_subset_Icc h1 h2))
  have hint : IntervalIntegrable (fun x => -((∫ w in (ε (x + 1))..(ε x), ρ w) * q (energy Λ f x))) volume x₁ x₂ := by
    refine ContinuousOn.intervalIntegrable_of_Icc h12 ?_
    exact (hWc.continuousOn.mul (hq.comp_continuousOn hEc)).neg
  have key := intervalIntegral.integral_eq_sub_of_hasDeriv_right_of_le h12 (f := fun x => ∫ w in (0)..(energy Λ f x), ρ w * q w)
    (f' := fun x => -((∫ w in (ε (x + 1))..(ε x), ρ w) * q (energy Λ f x))) (hQc.comp_continuousOn hEc) (fun x hx => by
      have hx' : x ∈ Ico 1 X := ⟨by linarith [hx.1], by linarith [hx.2]⟩
      have hd := (hQ (energy Λ f x)).comp_hasDerivWithinAt x (h.energy_deriv hΛ0 hx')
      refine (hd.congr_deriv ?_).mono Ioi_subset_Ici_self
      have hne : ρ (energy Λ f x) ≠ 0 := h.pos x hx'
      field_simp) hint
  rw [intervalIntegral.integral_neg] at key
  have hsub := intervalIntegral.integral_interval_sub_left (μ := volume) (hρq.intervalIntegrable 0 (energy Λ f x₁))
    (hρq.intervalIntegrable 0 (energy Λ f x₂))
  rw [← hsub]
  linarith

/-- **C89.** The average over the twist parameter: the star Hamiltonians with `N` intervals, weights and energies at `z + 1, z + 2, …`, averaged
over `z` from 0 to 1, have the hybridisation function between the last energy and the band edge. -/
theorem average_over_z {Λ : ℝ} (hΛ : 1 < Λ) {ρ ε f : ℝ → ℝ} {X : ℝ} (hρ : Continuous ρ) (hε : Continuous ε)
    (h : SolvesF Λ ρ ε f X) {q : ℝ → ℝ} (hq : Continuous q) (N : ℕ) (hN : (N : ℝ) + 1 ≤ X) :
    ∑ m ∈ Finset.range N, ∫ z in (0 : ℝ)..1, (∫ w in (ε (z + m + 1 + 1))..(ε (z + m + 1)), ρ w) * q (energy Λ f (z + m + 1)) =
      ∫ w in (energy Λ f (N + 1))..1, ρ w * q w := by
  have hΛ0 : 0 < Λ := by linarith
  have hρq : Continuous fun w => ρ w * q w := hρ.mul hq
  induction N with
  | zero =>
    rw [Finset.sum_range_zero, Nat.cast_zero, zero_add, energy_one hΛ0 h.init, intervalIntegral.integral_same]
  | succ N ih =>
    push_cast at hN
    rw [Finset.sum_range_succ, ih (by linarith)]
    have hshift := intervalIntegral.integral_comp_add_right
      (fun x => (∫ w in (ε (x + 1))..(ε x), ρ w) * q (energy Λ f x)) ((N : ℝ) + 1) (a := 0) (b := 1)
    simp only [← add_assoc] at hshift
    have hN0 : (0 : ℝ) ≤ N := Nat.cast_nonneg N
    rw [hshift, weights_reproduce hΛ hρ hε h hq (by linarith) (by linarith) (by linarith)]
    push_cast
    have e : (1 : ℝ) + N + 1 = N + 1 + 1 := by ring
    rw [e, zero_add, add_comm]
    exact intervalIntegral.integral_add_adjacent_intervals (hρq.intervalIntegrable _ _) (hρq.intervalIntegrable _ _)

/-! ## The adaptive mesh -/

/-- **C89.** The adaptive mesh cuts the band into intervals whose weights are in the ratio `Λ`: the weight above the point at `x` is
`A (1 - Λ^(2-x))`. -/
theorem mesh_weight {Λ : ℝ} (hΛ : 1 < Λ) {A : ℝ} {ρ g : ℝ → ℝ} {X : ℝ} (hρ : Continuous ρ) (h : SolvesG Λ A ρ g X) {x : ℝ} (hx : x ∈ Icc 2 X) :
    ∫ w in (energy Λ g x)..1, ρ w = A * (1 - Λ ^ (2 - x)) := by
  have hΛ0 : 0 < Λ := by linarith
  have hR : ∀ u, HasDerivAt (fun u => ∫ w in u..1, ρ w) (-ρ u) u := fun u =>
    intervalIntegral.integral_hasDerivAt_left (hρ.intervalIntegrable _ _) (hρ.stronglyMeasurableAtFilter _ _) hρ.continuousAt
  have hRc : Continuous (fun u => ∫ w in u..1, ρ w) := continuous_iff_continuousAt.mpr fun u => (hR u).continuousAt
  set H : ℝ → ℝ := fun u => (∫ w in (energy Λ g u)..1, ρ w) - A * (1 - Λ ^ (2 - u)) with hH
  have hHc : ContinuousOn H (Icc 2 X) := by
    refine (hRc.comp_continuousOn (energy_cont hΛ0 h.cont)).sub ?_
    exact (continuous_const.mul (continuous_const.sub (continuous_scale hΛ0))).continuousOn
  have hHd : ∀ u ∈ Ico 2 X, HasDerivWithinAt H 0 (Ici u) u := by
    intro u hu
    have hE : HasDerivWithinAt (energy Λ g) _ (Ici u) u := (h.eqn u hu).mul (hasDerivAt_scale hΛ0 u).hasDerivWithinAt
    have h1 := (hR (energy Λ g u)).comp_hasDerivWithinAt u hE
    have h2 := h1.sub (((hasDerivAt_scale hΛ0 u).const_sub 1).const_mul A).hasDerivWithinAt
    refine h2.congr_deriv ?_
    have hne : ρ (energy Λ g u) ≠ 0 := h.pos u hu
    have hne' : ρ (g u * Λ ^ (2 - u)) ≠ 0 := h.pos u hu
    unfold energy
    field_simp
    ring
  have hconst := constant_of_has_deriv_right_zero hHc hHd x hx
  have h1 : H 2 = 0 := by
    have e : energy Λ g 2 = 1 := by
      unfold energy
      rw [h.init, sub_self, Real.rpow_zero, one_mul]
    simp only [hH]
    rw [e, intervalIntegral.integral_same, sub_self, Real.rpow_zero]
    ring
  rw [h1] at hconst
  exact sub_eq_zero.mp hconst

/-- The weight of the interval at `x`. -/
theorem mesh_interval {Λ : ℝ} (hΛ : 1 < Λ) {A : ℝ} {ρ g : ℝ → ℝ} {X : ℝ} (hρ : Continuous ρ) (h : SolvesG Λ A ρ g X) {x : ℝ} (h2 : 2 ≤ x)
    (hX : x + 1 ≤ X) : ∫ w in (energy Λ g (x + 1))..(energy Λ g x), ρ w = A * (1 - 1 / Λ) * Λ ^ (2 - x) := by
  have hΛ0 : 0 < Λ := by linarith
  have a := mesh_weight hΛ hρ h (x := x) ⟨h2, by linarith⟩
  have b := mesh_weight hΛ hρ h (x := x + 1) ⟨by linarith, hX⟩
  have c := intervalIntegral.integral_add_adjacent_intervals (μ := volume) (hρ.intervalIntegrable (energy Λ g (x + 1)) (energy Λ g x))
    (hρ.intervalIntegrable (energy Λ g x) 1)
  have e : Λ ^ (2 - (x + 1)) = Λ ^ (2 - x) / Λ := by
    rw [show (2 : ℝ) - (x + 1) = 2 - x - 1 by ring, Real.rpow_sub_one hΛ0.ne']
  rw [e] at b
  rw [a, b] at c
  have : ∫ w in (energy Λ g (x + 1))..(energy Λ g x), ρ w = A * (1 - Λ ^ (2 - x) / Λ) - A * (1 - Λ ^ (2 - x)) := by linarith
  rw [this]
  field_simp
  ring

theorem scale_tendsto {Λ : ℝ} (hΛ : 1 < Λ) : Tendsto (fun x : ℝ => Λ ^ (2 - x)) atTop (𝓝 0) := by
  have h0 : 0 < Λ := by linarith
  have h1 : (fun x : ℝ => Λ ^ (2 - x)) = fun x : ℝ => Real.exp (Real.log Λ * (2 - x)) := by
    funext x
    rw [Real.rpow_def_of_pos h0]
  rw [h1]
  refine Real.tendsto_exp_atBot.comp ?_
  refine Tendsto.const_mul_atBot (Real.log_pos hΛ) ?_
  exact (tendsto_atBot_add_const_left atTop (2 : ℝ) tendsto_neg_atTop_atBot).congr fun x => by ring

/-- **C89.** What the search for the parameter `A` is after: a solution that stays bounded exists for no other value than the integral of the
hybridisation function over the band. -/
theorem bounded_only_for_integral {Λ : ℝ} (hΛ : 1 < Λ) {A : ℝ} {ρ g : ℝ → ℝ} (hρ : Continuous ρ) (h : ∀ X, SolvesG Λ A ρ g X)
    {B : ℝ} (hB : ∀ x, 2 ≤ x → |g x| ≤ B) : A = ∫ w in (0)..1, ρ w := by
  have hΛ0 : 0 < Λ := by linarith
  have hRc : Continuous (fun u => ∫ w in u..1, ρ w) :=
    continuous_iff_continuousAt.mpr fun u => (intervalIntegral.integral_hasDerivAt_left (hρ.intervalIntegrable _ _)
      (hρ.stronglyMeasurableAtFilter _ _) hρ.continuousAt : HasDerivAt (fun u => ∫ w in u..1, ρ w) (-ρ u) u).continuousAt
  have hE : Tendsto (energy Λ g) atTop (𝓝 0) := by
    have hb : Tendsto (fun x : ℝ => B * Λ ^ (2 - x)) atTop (𝓝 0) := by simpa using (scale_tendsto hΛ).const_mul B
    refine squeeze_zero_norm' ?_ hb
    filter_upwards [eventually_ge_atTop (2 : ℝ)] with x hx
    unfold energy
    have hp := Real.rpow_pos_of_pos hΛ0 (2 - x)
    rw [Real.norm_eq_abs, abs_mul, abs_of_pos hp]
    exact mul_le_mul_of_nonneg_right (hB x hx) hp.le
  have l1 : Tendsto (fun x => ∫ w in (energy Λ g x)..1, ρ w) atTop (𝓝 (∫ w in (0)..1, ρ w)) := (hRc.tendsto 0).comp hE
  have l2 : Tendsto (fun x : ℝ => A * (1 - Λ ^ (2 - x))) atTop (𝓝 A) := by
    simpa using ((scale_tendsto hΛ).const_sub 1).const_mul A
  refine tendsto_nhds_unique (l2.congr' ?_) l1
  filter_upwards [eventually_ge_atTop (2 : ℝ)] with x hx
  exact (mesh_weight hΛ hρ (h x) ⟨hx, le_refl x⟩).symm

/-- **C89.** And with that value the solution converges to `A / ρ(0)`, the value that the shooting compares with. -/
theorem limit_for_integral {Λ : ℝ} (hΛ : 1 < Λ) {A : ℝ} {ρ g : ℝ → ℝ} (hρ : Continuous ρ) (hpos : ∀ w, 0 < ρ w)
    (h : ∀ X, SolvesG Λ A ρ g X) (hA : A = ∫ w in (0)..1, ρ w) : Tendsto g atTop (𝓝 (A / ρ 0)) := by
  have hΛ0 : 0 < Λ := by linarith
  have hA0 : 0 < A := by
    rw [hA]
    exact intervalIntegral.intervalIntegral_pos_of_pos (hρ.intervalIntegrable _ _) hpos one_pos
  set R : ℝ → ℝ := fun u => ∫ w in (0)..u, ρ w with hR
  have hRd : ∀ u, HasDerivAt R (ρ u) u := fun u =>
    intervalIntegral.integral_hasDerivAt_right (hρ.intervalIntegrable _ _) (hρ.stronglyMeasurableAtFilter _ _) hρ.continuousAt
  have hmono : StrictMono R := strictMono_of_hasDerivAt_pos hRd hpos
  have hR0 : R 0 = 0 := intervalIntegral.integral_same
  have hval : ∀ x, 2 ≤ x → R (energy Λ g x) = A * Λ ^ (2 - x) := by
    intro x hx
    have h1 := mesh_weight hΛ hρ (h x) ⟨hx, le_refl x⟩
    have h2 := intervalIntegral.integral_add_adjacent_intervals (μ := volume) (hρ.intervalIntegrable 0 (energy Λ g x))
      (hρ.intervalIntegrable (energy Λ g x) 1)
    rw [h1, ← hA] at h2
    simp only [hR]
    linarith
  have hEpos : ∀ x, 2 ≤ x → 0 < energy Λ g x := by
    intro x hx
    have : R 0 < R (energy Λ g x) := by
      rw [hR0, hval x hx]
      exact mul_pos hA0 (Real.rpow_pos_of_pos hΛ0 _)
    exact hmono.lt_iff_lt.mp this
  have hE : Tendsto (energy Λ g) atTop (𝓝 0) := by
    rw [Metric.tendsto_atTop]
    intro δ hδ
    have hl : Tendsto (fun x : ℝ => A * Λ ^ (2 - x)) atTop (𝓝 0) := by simpa using (scale_tendsto hΛ).const_mul A
    have hRδ : 0 < R δ := by
      rw [← hR0]
      exact hmono hδ
    obtain ⟨N, hN⟩ := eventually_atTop.mp ((hl.eventually_lt_const hRδ).and (eventually_ge_atTop 2))
    refine ⟨N, fun x hx => ?_⟩
    obtain ⟨h1, h2⟩ := hN x hx
    rw [← hval x h2] at h1
    rw [Real.dist_eq, sub_zero, abs_of_pos (hEpos x h2)]
    exact hmono.lt_iff_lt.mp h1
  have hE' : Tendsto (energy Λ g) atTop (𝓝[≠] 0) := by
    refine tendsto_nhdsWithin_iff.mpr ⟨hE, ?_⟩
    filter_upwards [eventually_ge_atTop (2 : ℝ)] with x hx
    exact (hEpos x hx).ne'
  have hs := (hasDerivAt_iff_tendsto_slope.mp (hRd 0)).comp hE'
  have hlim : Tendsto (fun x => A / slope R 0 (energy Λ g x)) atTop (𝓝 (A / ρ 0)) := Tendsto.div tendsto_const_nhds hs (hpos 0).ne'
  refine hlim.congr' ?_
  filter_upwards [eventually_ge_atTop (2 : ℝ)] with x hx
  have hp := Real.rpow_pos_of_pos hΛ0 (2 - x)
  have he := hEpos x hx
  rw [slope_def_field, hR0, hval x hx, sub_zero, sub_zero]
  have : energy Λ g x = g x * Λ ^ (2 - x) := rfl
  rw [this] at he ⊢
  field_simp

/-- The mesh that the program uses is continuous when the tabulated function starts with 1. -/
theorem mesh_continuous {Λ : ℝ} (hΛ : 1 < Λ) {g : ℝ → ℝ} (hg : Continuous g) (h2 : g 2 = 1) (b : ℝ) : Continuous (meshFn Λ g b) := by
  have hΛ0 : 0 < Λ := by linarith
  refine (continuous_const.mul ?_).add continuous_const
  refine Continuous.if_le continuous_const (hg.mul (continuous_scale hΛ0)) continuous_id continuous_const ?_
  intro x hx
  rw [hx, h2, sub_self, Real.rpow_zero, one_mul]

/-! ## The flat band -/

/-- The energies of a flat band on the mesh without adaptation. -/
noncomputable def flatF (Λ x : ℝ) : ℝ :=
  if x ≤ 2 then (2 - x + (1 - Λ ^ (1 - x)) / Real.log Λ) * Λ ^ (x - 2) else (1 - 1 / Λ) / Real.log Λ

theorem flat_energy {Λ : ℝ} (hΛ : 1 < Λ) (x : ℝ) :
    energy Λ (flatF Λ) x = if x ≤ 2 then 2 - x + (1 - Λ ^ (1 - x)) / Real.log Λ else (1 - 1 / Λ) / Real.log Λ * Λ ^ (2 - x) := by
  have hΛ0 : 0 < Λ := by linarith
  unfold energy flatF
  split_ifs
  · rw [mul_assoc, ← Real.rpow_add hΛ0, show x - 2 + (2 - x) = 0 by ring, Real.rpow_zero, mul_one]
  · rfl

/-- **C89.** The flat band: the equation has the closed solution with the factor `(1 - 1/Λ)/log Λ` beyond the first interval. -/
theorem flat_solution {Λ : ℝ} (hΛ : 1 < Λ) {γ : ℝ} (hγ : γ ≠ 0) (X : ℝ) :
    SolvesF Λ (fun _ => γ) (meshFn Λ (fun _ => 1) 0) (flatF Λ) X := by
  have hΛ0 : 0 < Λ := by linarith
  have hlog : Real.log Λ ≠ 0 := (Real.log_pos hΛ).ne'
  have hmesh : ∀ x, meshFn Λ (fun _ => 1) 0 x = if x ≤ 2 then 1 else Λ ^ (2 - x) := by
    intro x
    simp [meshFn]
  have hs1 : ∀ x, HasDerivAt (fun x : ℝ => Λ ^ (1 - x)) (-(Real.log Λ * Λ ^ (1 - x))) x := by
    intro x
    have h1 : HasDerivAt (fun x : ℝ => 1 - x) (-1) x := by simpa using (hasDerivAt_id x).const_sub 1
    exact (h1.const_rpow hΛ0).congr_deriv (by ring)
  have hs2 : ∀ x, HasDerivAt (fun x : ℝ => Λ ^ (x - 2)) (Real.log Λ * Λ ^ (x - 2)) x := by
    intro x
    have h1 : HasDerivAt (fun x : ℝ => x - 2) 1 x := by simpa using (hasDerivAt_id x).sub_const 2
    exact (h1.const_rpow hΛ0).congr_deriv (by ring)
  have hd : ∀ x, HasDerivAt (fun x : ℝ => (2 - x + (1 - Λ ^ (1 - x)) / Real.log Λ) * Λ ^ (x - 2))
      ((-1 + Λ ^ (1 - x)) * Λ ^ (x - 2) + (2 - x + (1 - Λ ^ (1 - x)) / Real.log Λ) * (Real.log Λ * Λ ^ (x - 2))) x := by
    intro x
    have h1 : HasDerivAt (fun x : ℝ => 2 - x) (-1) x := by simpa using (hasDerivAt_id x).const_sub 2
    have h2 := (((hs1 x).const_sub 1).div_const (Real.log Λ))
    refine ((h1.add h2).mul (hs2 x)).congr_deriv ?_
    simp only [Pi.add_apply]
    field_simp
  refine ⟨?_, ?_, ?_, fun _ _ => hγ⟩
  · unfold flatF
    rw [if_pos (by norm_num), show (1 : ℝ) - 1 = 0 by norm_num, Real.rpow_zero, show (1 : ℝ) - 2 = -1 by norm_num, Real.rpow_neg_one]
    field_simp
    ring
  · refine Continuous.continuousOn ?_
    refine Continuous.if_le (continuous_iff_continuousAt.mpr fun x => (hd x).continuousAt) continuous_const continuous_id continuous_const ?_
    intro x hx
    rw [hx, sub_self, Real.rpow_zero, show (1 : ℝ) - 2 = -1 by norm_num, Real.rpow_neg_one]
    field_simp
    ring
  · intro x hx
    have hm1 : meshFn Λ (fun _ => 1) 0 (x + 1) = Λ ^ (1 - x) := by
      rw [hmesh, show (1 : ℝ) - x = 2 - (x + 1) by ring]
      split_ifs with hle
      · have : x + 1 = 2 := by linarith [hx.1]
        rw [this, sub_self, Real.rpow_zero]
      · rfl
    have hp : 0 < Λ ^ (2 - x) := Real.rpow_pos_of_pos hΛ0 _
    rw [intervalIntegral.integral_const, hm1, smul_eq_mul]
    by_cases h2 : x < 2
    · have heq : flatF Λ =ᶠ[𝓝 x] fun x : ℝ => (2 - x + (1 - Λ ^ (1 - x)) / Real.log Λ) * Λ ^ (x - 2) := by
        filter_upwards [Iio_mem_nhds h2] with y hy
        exact if_pos (le_of_lt hy)
      refine (((hd x).congr_of_eventuallyEq heq).congr_deriv ?_).hasDerivWithinAt
      have hfx : flatF Λ x = (2 - x + (1 - Λ ^ (1 - x)) / Real.log Λ) * Λ ^ (x - 2) := if_pos h2.le
      have hinv : Λ ^ (x - 2) = (Λ ^ (2 - x))⁻¹ := by rw [← Real.rpow_neg hΛ0.le, neg_sub]
      rw [hfx, hmesh, if_pos h2.le, hinv]
      field_simp
      ring
    · have hconst : ∀ y ∈ Ici x, flatF Λ y = (1 - 1 / Λ) / Real.log Λ := by
        intro y hy
        have hy : x ≤ y := hy
        unfold flatF
        split_ifs with hle
        · have : y = 2 := by linarith
          rw [this, sub_self, Real.rpow_zero, show (1 : ℝ) - 2 = -1 by norm_num, Real.rpow_neg_one]
          field_simp
          ring
        · rfl
      refine ((hasDerivWithinAt_const x (Ici x) ((1 - 1 / Λ) / Real.log Λ)).congr hconst (hconst x self_mem_Ici)).congr_deriv ?_
      have hmx : meshFn Λ (fun _ => 1) 0 x = Λ ^ (2 - x) := by
        rw [hmesh]
        split_ifs with hle
        · have : x = 2 := by linarith
          rw [this, sub_self, Real.rpow_zero]
        · rfl
      have h1x : Λ ^ (1 - x) = Λ ^ (2 - x) / Λ := by
        rw [show (1 : ℝ) - x = 2 - x - 1 by ring, Real.rpow_sub_one hΛ0.ne']
      rw [hconst x self_mem_Ici, hmx, h1x]
      field_simp
      ring

/-- **C89.** For the flat band the computed steps are exact beyond the first interval: from the factor, every Runge-Kutta step returns the
increment zero. -/
theorem flat_step {Λ : ℝ} (hΛ : 1 < Λ) {γ : ℝ} (hγ : γ ≠ 0) {rho ti : Tab ℝ} {total : ℝ} (hrho : Good rho)
    (hti : trapez rho = some (ti, total)) (hflat : ∀ x, IsInterp rho x γ) {s : Objs ℝ} (hs : ObjsOK ⟨none, none⟩ rho s) {x dx : ℝ}
    (hx : 2 ≤ x) (hdx : 0 ≤ dx) :
    ∃ s', rkStep (rhsF (lam Λ) ⟨none, none⟩ rho ti) s x ((1 - 1 / Λ) / Real.log Λ) dx = some (0, s') ∧ ObjsOK ⟨none, none⟩ rho s' := by
  have hΛ0 : 0 < Λ := by linarith
  have hlog : Real.log Λ ≠ 0 := (Real.log_pos hΛ).ne'
  have hmesh : ∀ x, 2 ≤ x → meshFn Λ (fun _ => 1) 0 x = Λ ^ (2 - x) := by
    intro x hx
    unfold meshFn
    split_ifs with hle
    · have : x = 2 := by linarith
      rw [this, sub_self, Real.rpow_zero]
      ring
    · ring
  have key : ∀ (s : Objs ℝ), ObjsOK ⟨none, none⟩ rho s → ∀ x, 2 ≤ x →
      ∃ s', (rhsF (lam Λ) ⟨none, none⟩ rho ti).rhs s x ((1 - 1 / Λ) / Real.log Λ) = some (0, s') ∧ ObjsOK ⟨none, none⟩ rho s' := by
    intro s hs x hx
    have hm : MeshIs (⟨none, none⟩ : Mesh ℝ) (fun _ => 1) 0 := ⟨fun _ => rfl, rfl⟩
    obtain ⟨s', e1, e2⟩ := rhsF_value (Λ := Λ) hm hrho hti hflat (fun a c => continuous_const.intervalIntegrable a c) hs x
      ((1 - 1 / Λ) / Real.log Λ)
    refine ⟨s', ?_, e2⟩
    have hp : 0 < Λ ^ (2 - x) := Real.rpow_pos_of_pos hΛ0 _
    have h1x : Λ ^ (2 - (x + 1)) = Λ ^ (2 - x) / Λ := by
      rw [show (2 : ℝ) - (x + 1) = 2 - x - 1 by ring, Real.rpow_sub_one hΛ0.ne']
    rw [e1, if_neg (mul_ne_zero hp.ne' hγ), intervalIntegral.integral_const, hmesh x hx, hmesh (x + 1) (by linarith), h1x, smul_eq_mul]
    congr 2
    field_simp
    ring
  obtain ⟨s1, a1, a2⟩ := key s hs x hx
  obtain ⟨s2, b1, b2⟩ := key s1 a2 (x + dx / 2) (by linarith)
  obtain ⟨s3, c1, c2⟩ := key s2 b2 (x + dx / 2) (by linarith)
  obtain ⟨s4, d1, d2⟩ := key s3 c2 (x + dx) (by linarith)
  refine ⟨s4, ?_, d2⟩
  unfold rkStep
  simp only [a1, mul_zero, zero_div, add_zero, b1, c1, d1, Option.bind_eq_bind, Option.bind_some, Option.pure_def]

/-- The hypotheses are met: a table with two points is flat. -/
example : ∃ (rho ti : Tab ℝ) (total : ℝ), Good rho ∧ trapez rho = some (ti, total) ∧ ∀ x, IsInterp rho x 3 := by
  refine ⟨[(0, 3), (1, 3)], [(0, 0), (1, 3)], 3, ⟨by simp, ?_⟩, ?_, ?_⟩
  · intro i hi
    have : i = 0 := by simp at hi; omega
    subst this
    simp [Tab.x]
  · simp [trapez, trapezLoop]
  · intro x
    by_cases h0 : x ≤ 0
    · exact Or.inl ⟨by simpa [Tab.x] using h0, by simp [Tab.f]⟩
    · by_cases h1 : 1 ≤ x
      · exact Or.inr (Or.inl ⟨by simpa [Tab.x] using h1, by simp [Tab.f]⟩)
      · refine Or.inr (Or.inr ⟨0, by simp, ?_, ?_, ?_⟩) <;> simp [Tab.x, Tab.f] <;> linarith

/-- The averaged star Hamiltonian of the flat band, for every test function and every number of intervals. -/
example (q : ℝ → ℝ) (hq : Continuous q) (N : ℕ) :
    ∑ m ∈ Finset.range N, ∫ z in (0 : ℝ)..1, (∫ _ in (meshFn 2 (fun _ => 1) 0 (z + m + 1 + 1))..(meshFn 2 (fun _ => 1) 0 (z + m + 1)), (5 : ℝ)) *
        q (energy 2 (flatF 2) (z + m + 1)) = ∫ w in (energy 2 (flatF 2) (N + 1))..1, 5 * q w := by
  refine average_over_z (by norm_num) continuous_const ?_ (flat_solution (by norm_num) (by norm_num) _) hq N (le_refl _)
  exact mesh_continuous (by norm_num) continuous_const rfl 0

/-- The mesh of the flat band is not changed by the adaptation. -/
example (X : ℝ) : SolvesG 2 5 (fun _ => 5) (fun _ => 1) X :=
  ⟨rfl, continuousOn_const, fun x _ => (hasDerivWithinAt_const x (Ici x) 1).congr_deriv (by norm_num), fun _ _ => by norm_num⟩

end Verif.Adapt
