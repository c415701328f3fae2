import Verif.Broad.Model
import Mathlib.Analysis.SpecialFunctions.Gaussian.GaussianIntegral
import Mathlib.MeasureTheory.Function.Jacobian
import Mathlib.MeasureTheory.Function.JacobianOneDim
import Mathlib.MeasureTheory.Integral.IntegralEqImproper
/-!
# Helper lemmas: integrals of the broadening kernels
-/

namespace Verif.Broad
open MeasureTheory Real Set

/-- The normalised Gaussian of unit width. -/
noncomputable def gauss (u : ℝ) : ℝ := exp (-u ^ 2) / sqrt π

theorem sqrt_pi_pos : 0 < sqrt π := sqrt_pos.2 pi_pos

theorem gauss_integrable : Integrable gauss := by
  have h := (integrable_exp_neg_mul_sq (b := 1) one_pos).div_const (sqrt π)
  refine h.congr (ae_of_all _ fun u => ?_)
  simp [gauss]

theorem gauss_integral : ∫ u, gauss u = 1 := by
  have h := integral_gaussian 1
  simp only [gauss]
  rw [integral_div]
  have h2 : ∫ u : ℝ, exp (-u ^ 2) = sqrt π := by simpa using h
  rw [h2]
  exact div_self sqrt_pi_pos.ne'

theorem gauss_pos (u : ℝ) : 0 < gauss u := div_pos (exp_pos _) sqrt_pi_pos

/-! ## The Gaussian of a given width -/

theorem brG_eq (w e ept : ℝ) : brG w e ept = w⁻¹ * gauss ((e - ept) * w⁻¹) := by
  simp only [brG, gauss, div_eq_mul_inv, mul_inv]
  ring

theorem brG_integrable {w : ℝ} (hw : 0 < w) (ept : ℝ) : Integrable fun e => brG w e ept := by
  simp only [brG_eq]
  exact (((gauss_integrable).comp_mul_right' (inv_ne_zero hw.ne')).comp_sub_right ept).const_mul _

theorem brG_integral {w : ℝ} (hw : 0 < w) (ept : ℝ) : ∫ e, brG w e ept = 1 := by
  simp only [brG_eq]
  rw [integral_const_mul, integral_sub_right_eq_self (fun e => gauss (e * w⁻¹)) ept,
    Measure.integral_comp_mul_right, gauss_integral]
  simp [abs_of_pos hw, hw.ne']

theorem brG_pos {w : ℝ} (hw : 0 < w) (e ept : ℝ) : 0 < brG w e ept :=
  div_pos (exp_pos _) (mul_pos hw sqrt_pi_pos)

/-! ## The logarithmic Gaussian -/

/-- The variable in which the kernel is a Gaussian. -/
noncomputable def phi (alpha ept e : ℝ) : ℝ := log (e / ept) / alpha - alpha / 4

theorem phi_deriv {alpha ept e : ℝ} (hept : 0 < ept) (he : 0 < e) :
    HasDerivAt (phi alpha ept) (alpha⁻¹ * e⁻¹) e := by
  have h1 : HasDerivAt (fun e => log (e / ept)) (e⁻¹) e := by
    have h : HasDerivAt (fun y : ℝ => log (y / ept)) (1 / ept / (e / ept)) e :=
      ((hasDerivAt_id e).div_const ept).log (div_pos he hept).ne'
    rwa [show 1 / ept / (e / ept) = e⁻¹ by field_simp] at h
  have h2 := (h1.div_const alpha).sub_const (alpha / 4)
  rw [show e⁻¹ / alpha = alpha⁻¹ * e⁻¹ by rw [div_eq_mul_inv, mul_comm]] at h2
  exact h2

theorem phi_inj {alpha ept : ℝ} (ha : 0 < alpha) (hept : 0 < ept) : InjOn (phi alpha ept) (Ioi 0) := by
  intro a ha' b hb h
  have h1 : log (a / ept) = log (b / ept) := by
    have : log (a / ept) / alpha = log (b / ept) / alpha := by simpa [phi] using h
    exact (div_left_inj' ha.ne').1 this
  have h2 := log_injOn_pos (div_pos ha' hept) (div_pos hb hept) h1
  exact (div_left_inj' hept.ne').1 h2

theorem phi_image {alpha ept : ℝ} (ha : 0 < alpha) (hept : 0 < ept) : phi alpha ept '' Ioi 0 = univ := by
  refine eq_univ_of_forall fun u => ⟨ept * exp (alpha * (u + alpha / 4)), mul_pos hept (exp_pos _), ?_⟩
  simp only [phi]
  rw [mul_comm ept, mul_div_assoc, div_self hept.ne', mul_one, log_exp]
  field_simp
  ring

theorem logGauss_pos_form {alpha ept : ℝ} (ha : 0 < alpha) (hept : 0 < ept) :
    (fun e => logGauss alpha e ept) = indicator (Ioi 0) fun e => |alpha⁻¹ * e⁻¹| • gauss (phi alpha ept e) := by
  funext e
  simp only [logGauss, indicator, mem_Ioi]
  rcases lt_trichotomy e 0 with h | h | h
  · simp [h, hept, h.le]
  · subst h; simp
  · rw [if_neg (by rintro (⟨h1, _⟩ | ⟨_, h1⟩) <;> linarith), if_neg hept.ne', if_pos h]
    have h1 : 0 < alpha⁻¹ * e⁻¹ := by positivity
    rw [abs_of_pos h1, abs_of_pos h, smul_eq_mul, gauss, phi]
    rw [div_eq_mul_inv, div_eq_mul_inv (exp _) (sqrt π), mul_inv, mul_inv]
    ring

theorem logGauss_neg (alpha e ept : ℝ) : logGauss alpha (-e) (-ept) = logGauss alpha e ept := by
  simp only [logGauss, neg_lt_zero, Left.neg_pos_iff, neg_eq_zero, neg_div_neg_eq, abs_neg]
  refine if_congr ?_ rfl rfl
  tauto

theorem logGauss_integral_pos {alpha ept : ℝ} (ha : 0 < alpha) (hept : 0 < ept) :
    Integrable (fun e => logGauss alpha e ept) ∧ ∫ e, logGauss alpha e ept = 1 := by
  have hd : ∀ e ∈ Ioi (0 : ℝ), HasDerivWithinAt (phi alpha ept) (alpha⁻¹ * e⁻¹) (Ioi 0) e :=
    fun e he => (phi_deriv hept he).hasDerivWithinAt
  constructor
  · rw [logGauss_pos_form ha hept, integrable_indicator_iff measurableSet_Ioi]
    rw [← integrableOn_image_iff_integrableOn_abs_deriv_smul measurableSet_Ioi hd (phi_inj ha hept), phi_image ha hept]
    exact gauss_integrable.integrableOn
  · rw [logGauss_pos_form ha hept, integral_indicator measurableSet_Ioi,
      ← integral_image_eq_integral_abs_deriv_smul measurableSet_Ioi hd (phi_inj ha hept), phi_image ha hept,
      setIntegral_univ, gauss_integral]

theorem logGauss_integral {alpha ept : ℝ} (ha : 0 < alpha) (hept : ept ≠ 0) :
    Integrable (fun e => logGauss alpha e ept) ∧ ∫ e, logGauss alpha e ept = 1 := by
  rcases lt_or_gt_of_ne hept with h | h
  · have h2 := logGauss_integral_pos ha (neg_pos.2 h)
    have h3 : (fun e => logGauss alpha e ept) = fun e => logGauss alpha (-e) (-ept) := by
      funext e; rw [logGauss_neg]
    rw [h3]
    exact ⟨h2.1.comp_neg, by rw [integral_neg_eq_self (fun e => logGauss alpha e (-ept))]; exact h2.2⟩
  · exact logGauss_integral_pos ha h

theorem logGauss_zero (alpha e : ℝ) : logGauss alpha e 0 = 0 := by
  simp [logGauss]

theorem logGauss_nonneg {alpha : ℝ} (ha : 0 < alpha) (e ept : ℝ) : 0 ≤ logGauss alpha e ept := by
  simp only [logGauss]
  split
  · exact le_rfl
  · split
    · exact le_rfl
    · have := exp_pos (-(log (e / ept) / alpha - alpha / 4) ^ 2)
      have := sqrt_pi_pos
      positivity

theorem logGauss_support {alpha e ept : ℝ} (ha : 0 < alpha) (he : 0 < e) (hept : 0 < ept) : 0 < logGauss alpha e ept := by
  simp only [logGauss]
  rw [if_neg (by rintro (⟨h1, _⟩ | ⟨_, h1⟩) <;> linarith), if_neg hept.ne']
  have := exp_pos (-(log (e / ept) / alpha - alpha / 4) ^ 2)
  have := sqrt_pi_pos
  have := abs_pos.2 he.ne'
  positivity

/-! ## The cross-over function -/

theorem brH0_range {alpha omega0 : ℝ} (x : ℝ) : 0 ≤ brH0 alpha omega0 x ∧ brH0 alpha omega0 x ≤ 1 := by
  simp only [brH0]
  split
  · exact ⟨zero_le_one, le_rfl⟩
  · split
    · exact ⟨le_rfl, zero_le_one⟩
    · exact ⟨(exp_pos _).le, exp_le_one_iff.2 (neg_nonpos.2 (sq_nonneg _))⟩

theorem brH_range (S : Settings) (e ept : ℝ) : 0 ≤ brH S e ept ∧ brH S e ept ≤ 1 := by
  simp only [brH]
  split <;> exact brH0_range _

theorem brH0_measurable (alpha omega0 : ℝ) : Measurable (brH0 alpha omega0) := by
  unfold brH0
  refine Measurable.ite (measurableSet_lt measurable_const measurable_norm) measurable_const ?_
  refine Measurable.ite (measurableSet_singleton 0) measurable_const ?_
  fun_prop

/-! ## The shift -/

theorem shift_zero (e ept : ℝ) : shift 0 e ept = (e, ept) := by
  simp only [shift, sub_zero, neg_zero]
  split <;> split <;> rfl

theorem shift_above {acc e ept : ℝ} (ha : 0 ≤ acc) (he : acc < e) (hept : acc < ept) :
    shift acc e ept = (e - acc, ept - acc) := by
  simp only [shift, if_pos (And.intro he hept)]
  rw [if_neg]
  rintro ⟨h, _⟩
  linarith [h]

theorem shift_below {acc e ept : ℝ} (ha : 0 ≤ acc) (he : e < -acc) (hept : ept < -acc) :
    shift acc e ept = (e + acc, ept + acc) := by
  have h1 : ¬(acc < e ∧ acc < ept) := by rintro ⟨h, _⟩; linarith
  simp only [shift, if_neg h1]
  rw [if_pos ⟨he, hept⟩]
  simp

theorem shift_other {acc e ept : ℝ} (h1 : ¬(acc < e ∧ acc < ept)) (h2 : ¬(e < -acc ∧ ept < -acc)) :
    shift acc e ept = (e, ept) := by
  simp only [shift, if_neg h1]
  rw [if_neg h2]

theorem shift_neg {acc : ℝ} (ha : 0 ≤ acc) (e ept : ℝ) :
    shift acc (-e) (-ept) = (-(shift acc e ept).1, -(shift acc e ept).2) := by
  by_cases h1 : acc < e ∧ acc < ept
  · rw [shift_above ha h1.1 h1.2, shift_below ha (by linarith [h1.1]) (by linarith [h1.2])]
    simp only [Prod.mk.injEq]; constructor <;> ring
  · by_cases h2 : e < -acc ∧ ept < -acc
    · rw [shift_below ha h2.1 h2.2, shift_above ha (by linarith [h2.1]) (by linarith [h2.2])]
      simp only [Prod.mk.injEq]; constructor <;> ring
    · rw [shift_other h1 h2, shift_other]
      · rintro ⟨h, h'⟩; exact h2 ⟨by linarith, by linarith⟩
      · rintro ⟨h, h'⟩; exact h1 ⟨by linarith, by linarith⟩

theorem brL_neg {acc : ℝ} (ha : 0 ≤ acc) (alpha e ept : ℝ) : brL alpha acc (-e) (-ept) = brL alpha acc e ept := by
  simp only [brL, shift_neg ha]
  exact logGauss_neg _ _ _

theorem brL_zero (alpha e ept : ℝ) : brL alpha 0 e ept = logGauss alpha e ept := by
  simp [brL, shift_zero]

end Verif.Broad
