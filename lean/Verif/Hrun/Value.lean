import Verif.Hrun.Lemmas
/-!
# The values of the transform
-/

namespace Verif.Hrun
open Verif.Tools.Hilb
open MeasureTheory

theorem quot_integrableC {rho : ℝ → ℝ} {B : ℝ} (h : IntervalIntegrable rho volume (-B) B) {z : ℂ} (hz : z.im ≠ 0) :
    IntervalIntegrable (fun w : ℝ => (rho w : ℂ) / (z - w)) volume (-B) B := by
  have hne : ∀ w : ℝ, z - (w : ℂ) ≠ 0 := by
    intro w e
    apply hz
    have := congrArg Complex.im e
    simpa using this
  have hc : Continuous fun w : ℝ => (z - (w : ℂ))⁻¹ := Continuous.inv₀ (by fun_prop) hne
  have h1 : IntervalIntegrable (fun w => (rho w : ℂ)) volume (-B) B := ⟨h.1.ofReal, h.2.ofReal⟩
  have := h1.mul_continuousOn hc.continuousOn
  refine this.congr ?_
  intro w _
  simp only [div_eq_mul_inv]

theorem green_parts {rho : ℝ → ℝ} {B : ℝ} (h : IntervalIntegrable rho volume (-B) B) {z : ℂ} (hz : z.im ≠ 0) :
    (green rho B z).re = exactRe rho (fun _ => 0) B z.re z.im ∧ (green rho B z).im = exactIm rho (fun _ => 0) B z.re z.im := by
  have hi := quot_integrableC h hz
  have e1 := Complex.reCLM.intervalIntegral_comp_comm hi
  have e2 := Complex.imCLM.intervalIntegral_comp_comm hi
  simp only [Complex.reCLM_apply, Complex.imCLM_apply] at e1 e2
  unfold green exactRe exactIm
  rw [← e1, ← e2]
  simp [Complex.re_add_im]

theorem transform_approx {rho : ℝ → ℝ} {B : ℝ} (hB : 0 < B) (h : OnBand rho B) {z : ℂ} (hz : z.im ≠ 0) :
    ∃ g : ℂ, transform rho (fun _ => 0) B z.re z.im = some (g.re, g.im) ∧ Approx rho B z g := by
  have h0 : OnBand (fun _ => (0 : ℝ)) B := ⟨intervalIntegrable_const, fun _ _ => rfl⟩
  obtain ⟨p1, p2⟩ := green_parts h.integrable hz
  refine ⟨⟨hilbertRe rho (fun _ => 0) B z.re z.im 1e-3, hilbertIm rho (fun _ => 0) B z.re z.im 1e-3⟩, ?_, ?_, ?_⟩
  · rw [transform, if_neg hz]
  · intro hc
    have : hilbertRe rho (fun _ => 0) B z.re z.im 1e-3 = exactRe rho (fun _ => 0) B z.re z.im ∧
        hilbertIm rho (fun _ => 0) B z.re z.im 1e-3 = exactIm rho (fun _ => 0) B z.re z.im := by
      rcases hc with hc | hc
      · exact hilbert_direct _ _ _ _ _ _ hc
      · exact hilbert_outside _ _ _ _ _ _ hB h h0 hz hc
    apply Complex.ext
    · rw [p1]; exact this.1
    · rw [p2]; exact this.2
  · intro C hC hL h1 h2
    rw [p1, p2]
    by_cases hl : |z.im| < 1e-3
    · have hcut : cut z.im = |z.im| * Real.exp (-36.8) := by rw [cut, ln1016]
      exact hilbert_inside_error rho (fun _ => 0) B z.re z.im 1e-3 C h h0 hz h1 h2 hl hC (by rw [hcut]; exact hL)
        (fun w _ => by simpa using mul_nonneg hC (abs_nonneg (w - z.re)))
    · have := hilbert_direct rho (fun _ => 0) B z.re z.im 1e-3 (not_lt.1 hl)
      have hb : 0 ≤ 3 * C * (|z.im| * Real.exp (-36.8)) := by positivity
      constructor
      · simpa [this.1] using hb
      · simpa [this.2] using hb

/-- The semicircle of the program. -/
theorem semicircle_eq {D : ℝ} (hD : 0 < D) (w : ℝ) : semicircle (1 / D) w = semi D w := by
  have e : D ^ 2 - w ^ 2 = D ^ 2 * (1 - (w * (1 / D)) ^ 2) := by field_simp
  have hs : Real.sqrt (D ^ 2 - w ^ 2) = D * Real.sqrt (1 - (w * (1 / D)) ^ 2) := by
    rw [e, Real.sqrt_mul (sq_nonneg D), Real.sqrt_sq hD.le]
  unfold semicircle semi
  rw [hs]
  split_ifs with h
  · field_simp
  · have : 1 - (w * (1 / D)) ^ 2 ≤ 0 := by
      have h1 := not_lt.1 h
      have := sq_abs (w * (1 / D))
      nlinarith
    rw [Real.sqrt_eq_zero_of_nonpos this]
    ring

theorem semi_onBand {D : ℝ} (hD : 0 < D) : OnBand (semi D) D := by
  refine ⟨(by unfold semi; fun_prop : Continuous (semi D)).intervalIntegrable _ _, fun x hx => ?_⟩
  unfold semi
  rw [Real.sqrt_eq_zero_of_nonpos, mul_zero]
  rcases hx with h | h <;> nlinarith

/-- **C124.** The semicircle is a density: its integral over the band is one. -/
theorem semi_normalised {D : ℝ} (hD : 0 < D) : ∫ w in (-D)..D, semi D w = 1 := by
  have h := intervalIntegral.integral_comp_mul_left (a := -1) (b := 1) (f := fun w => semi D w) hD.ne'
  have e : (fun x => semi D (D * x)) = fun x => 2 / (Real.pi * D) * Real.sqrt (1 - x ^ 2) := by
    funext x
    unfold semi
    rw [show D ^ 2 - (D * x) ^ 2 = D ^ 2 * (1 - x ^ 2) by ring, Real.sqrt_mul (sq_nonneg D), Real.sqrt_sq hD.le]
    field_simp
  rw [e, intervalIntegral.integral_const_mul, integral_sqrt_one_sub_sq] at h
  simp only [mul_neg, mul_one, smul_eq_mul] at h
  have hp := Real.pi_pos
  field_simp at h
  linarith

end Verif.Hrun
