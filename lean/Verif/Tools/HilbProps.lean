import Verif.Tools.Hilb
import Mathlib.MeasureTheory.Function.Jacobian
import Mathlib.MeasureTheory.Integral.IntervalIntegral.FundThmCalculus
import Mathlib.Analysis.SpecialFunctions.Trigonometric.ArctanDeriv
import Mathlib.Analysis.SpecialFunctions.Log.Deriv
import Mathlib.Analysis.SpecialFunctions.Integrals.Basic
import Mathlib.Tactic.Linarith
import Mathlib.Tactic.FieldSimp
import Mathlib.Tactic.Ring
/-!
# Properties of the Hilbert transform: C59

The quantity to be computed is `∫ ρ(ω) / (z - ω) dω` over the band `[-B, B]`, for
`z = x + i y`.
-/

namespace Verif.Tools.Hilb

open MeasureTheory Real Set

/-- The exact real part of the transform over the band. -/
noncomputable def exactRe (rhor rhoi : ℝ → ℝ) (B x y : ℝ) : ℝ :=
  ∫ w in (-B)..B, (((rhor w : ℂ) + rhoi w * Complex.I) / ((x + y * Complex.I) - w)).re

/-- The exact imaginary part. -/
noncomputable def exactIm (rhor rhoi : ℝ → ℝ) (B x y : ℝ) : ℝ :=
  ∫ w in (-B)..B, (((rhor w : ℂ) + rhoi w * Complex.I) / ((x + y * Complex.I) - w)).im

theorem quot_re (r m x y w : ℝ) : (((r : ℂ) + m * Complex.I) / ((x + y * Complex.I) - w)).re =
    (r * (x - w) + m * y) / (y ^ 2 + (x - w) ^ 2) := by
  rw [Complex.div_re]
  simp [Complex.normSq_apply]
  rw [← add_div]
  congr 1
  ring

theorem quot_im (r m x y w : ℝ) : (((r : ℂ) + m * Complex.I) / ((x + y * Complex.I) - w)).im =
    (r * (-y) + m * (x - w)) / (y ^ 2 + (x - w) ^ 2) := by
  rw [Complex.div_im]
  simp [Complex.normSq_apply]
  rw [← sub_div]
  congr 1 <;> ring

theorem exactRe_eq (rhor rhoi : ℝ → ℝ) (B x y : ℝ) : exactRe rhor rhoi B x y = ∫ w in (-B)..B, ref0 x y rhor rhoi w := by
  unfold exactRe ref0
  simp only [quot_re]

theorem exactIm_eq (rhor rhoi : ℝ → ℝ) (B x y : ℝ) : exactIm rhor rhoi B x y = ∫ w in (-B)..B, imf0 x y rhor rhoi w := by
  unfold exactIm imf0
  simp only [quot_im]

/-! ### The two analytic integrals -/

theorem den_pos {y : ℝ} (hy : y ≠ 0) (t : ℝ) : 0 < y ^ 2 + t ^ 2 := by positivity

theorem integral_re (x y B : ℝ) (hy : y ≠ 0) :
    ∫ w in (-B)..B, (x - w) / (y ^ 2 + (x - w) ^ 2) = reQ x y B := by
  have hd : ∀ w ∈ uIcc (-B) B, HasDerivAt (fun w => -(log (y ^ 2 + (x - w) ^ 2) / 2)) ((x - w) / (y ^ 2 + (x - w) ^ 2)) w := by
    intro w _
    have h1 : HasDerivAt (fun w => y ^ 2 + (x - w) ^ 2) (2 * (x - w) * (-1)) w := by
      have := ((hasDerivAt_id' w).const_sub x).fun_pow 2
      simpa using this.const_add (y ^ 2)
    have h2 : HasDerivAt (fun w => -(log (y ^ 2 + (x - w) ^ 2) / 2)) _ w := ((h1.log (den_pos hy _).ne').div_const 2).neg
    exact h2.congr_deriv (by ring)
  have hc : Continuous fun w => (x - w) / (y ^ 2 + (x - w) ^ 2) :=
    Continuous.div (by fun_prop) (by fun_prop) fun w => (den_pos hy _).ne'
  rw [intervalIntegral.integral_eq_sub_of_hasDerivAt hd (hc.intervalIntegrable _ _)]
  unfold reQ
  rw [show y ^ 2 + (x - B) ^ 2 = (B - x) ^ 2 + y ^ 2 by ring, show y ^ 2 + (x - -B) ^ 2 = (B + x) ^ 2 + y ^ 2 by ring]
  ring

theorem integral_im (x y B : ℝ) (hy : y ≠ 0) :
    ∫ w in (-B)..B, (-y) / (y ^ 2 + (x - w) ^ 2) = imQ x y B := by
  have hd : ∀ w ∈ uIcc (-B) B, HasDerivAt (fun w => arctan ((x - w) / y)) ((-y) / (y ^ 2 + (x - w) ^ 2)) w := by
    intro w _
    have h1 : HasDerivAt (fun w => (x - w) / y) (-1 / y) w := ((hasDerivAt_id' w).const_sub x).div_const y
    convert h1.arctan using 1
    have := den_pos hy (x - w)
    have h2 : 1 + ((x - w) / y) ^ 2 ≠ 0 := by positivity
    field_simp
  have hc : Continuous fun w => (-y) / (y ^ 2 + (x - w) ^ 2) :=
    Continuous.div (by fun_prop) (by fun_prop) fun w => (den_pos hy _).ne'
  rw [intervalIntegral.integral_eq_sub_of_hasDerivAt hd (hc.intervalIntegrable _ _)]
  unfold imQ
  rw [show x - B = -B + x by ring, show x - -B = B + x by ring]

/-! ### Change of variables -/

theorem subst_p (x y a b : ℝ) (f1 : ℝ → ℝ) (hy : y ≠ 0) (hab : a ≤ b) :
    ∫ r in a..b, f3p x y f1 r = ∫ w in (x + |y| * exp a)..(x + |y| * exp b), f1 w := by
  have hp : 0 < |y| := abs_pos.2 hy
  have himg : (fun r => |y| * exp r + x) '' Ioc a b = Ioc (x + |y| * exp a) (x + |y| * exp b) := by
    ext w
    constructor
    · rintro ⟨r, ⟨h1, h2⟩, rfl⟩
      have e1 := mul_lt_mul_of_pos_left (exp_lt_exp.2 h1) hp
      have e2 := mul_le_mul_of_nonneg_left (exp_le_exp.2 h2) hp.le
      dsimp only
      constructor <;> linarith
    · rintro ⟨h1, h2⟩
      have hw : 0 < (w - x) / |y| := div_pos (by have := mul_pos hp (exp_pos a); linarith) hp
      refine ⟨log ((w - x) / |y|), ⟨?_, ?_⟩, ?_⟩
      · rw [lt_log_iff_exp_lt hw, lt_div_iff₀ hp]; linarith
      · rw [log_le_iff_le_exp hw, div_le_iff₀ hp]; linarith
      · dsimp only; rw [exp_log hw]; field_simp; ring
  have hinj : InjOn (fun r => |y| * exp r + x) (Ioc a b) := by
    intro r _ s _ h
    have : |y| * exp r = |y| * exp s := by simpa using h
    exact exp_injective (mul_left_cancel₀ hp.ne' this)
  have hder : ∀ r ∈ Ioc a b, HasDerivWithinAt (fun r => |y| * exp r + x) (|y| * exp r) (Ioc a b) r := by
    intro r _
    exact (((hasDerivAt_exp r).const_mul |y|).add_const x).hasDerivWithinAt
  rw [intervalIntegral.integral_of_le hab, intervalIntegral.integral_of_le
    (by have := mul_le_mul_of_nonneg_left (exp_le_exp.2 hab) hp.le; linarith), ← himg,
    integral_image_eq_integral_abs_deriv_smul measurableSet_Ioc hder hinj]
  refine integral_congr_ae (Filter.Eventually.of_forall fun r => ?_)
  simp only [f3p, f2, smul_eq_mul]
  rw [abs_of_pos (mul_pos hp (exp_pos r))]
  ring

theorem subst_m (x y a b : ℝ) (f1 : ℝ → ℝ) (hy : y ≠ 0) (hab : a ≤ b) :
    ∫ r in a..b, f3m x y f1 r = ∫ w in (x - |y| * exp b)..(x - |y| * exp a), f1 w := by
  have hp : 0 < |y| := abs_pos.2 hy
  have himg : (fun r => |y| * (-exp r) + x) '' Ioc a b = Ico (x - |y| * exp b) (x - |y| * exp a) := by
    ext w
    constructor
    · rintro ⟨r, ⟨h1, h2⟩, rfl⟩
      have e1 := mul_lt_mul_of_pos_left (exp_lt_exp.2 h1) hp
      have e2 := mul_le_mul_of_nonneg_left (exp_le_exp.2 h2) hp.le
      dsimp only
      constructor <;> linarith
    · rintro ⟨h1, h2⟩
      have hw : 0 < (x - w) / |y| := div_pos (by have := mul_pos hp (exp_pos a); linarith) hp
      refine ⟨log ((x - w) / |y|), ⟨?_, ?_⟩, ?_⟩
      · rw [lt_log_iff_exp_lt hw, lt_div_iff₀ hp]; linarith
      · rw [log_le_iff_le_exp hw, div_le_iff₀ hp]; linarith
      · dsimp only; rw [exp_log hw]; field_simp; ring
  have hinj : InjOn (fun r => |y| * (-exp r) + x) (Ioc a b) := by
    intro r _ s _ h
    have : |y| * exp r = |y| * exp s := by simpa using h
    exact exp_injective (mul_left_cancel₀ hp.ne' this)
  have hder : ∀ r ∈ Ioc a b, HasDerivWithinAt (fun r => |y| * (-exp r) + x) (|y| * (-exp r)) (Ioc a b) r := by
    intro r _
    exact (((hasDerivAt_exp r).neg.const_mul |y|).add_const x).hasDerivWithinAt
  rw [intervalIntegral.integral_of_le hab, intervalIntegral.integral_of_le
    (by have := mul_le_mul_of_nonneg_left (exp_le_exp.2 hab) hp.le; linarith), ← integral_Ico_eq_integral_Ioc (x := x - |y| * exp b), ← himg,
    integral_image_eq_integral_abs_deriv_smul measurableSet_Ioc hder hinj]
  refine integral_congr_ae (Filter.Eventually.of_forall fun r => ?_)
  simp only [f3m, f2, smul_eq_mul]
  rw [mul_neg, abs_neg, abs_of_pos (mul_pos hp (exp_pos r))]
  ring

/-! ### The integration limits -/

/-- The width that is left out on both sides of the singularity. -/
noncomputable def cut (y : ℝ) : ℝ := |y| * exp ln1016

theorem cut_pos {y : ℝ} (hy : y ≠ 0) : 0 < cut y := mul_pos (abs_pos.2 hy) (exp_pos _)

/-- Inside the band: the two pieces on both sides of the singularity, and the analytic part. -/
theorem calcA_inside (x y B d : ℝ) (f1 : ℝ → ℝ) (hy : y ≠ 0) (h1 : -B < x) (h2 : x < B) :
    calcA x y B (f3p x y f1) (f3m x y f1) d =
      (∫ w in (min (x + cut y) B)..B, f1 w) + (∫ w in (-B)..(max (x - cut y) (-B)), f1 w) + d := by
  have hp : 0 < |y| := abs_pos.2 hy
  have c1 : (x - B) / |y| < 0 := div_neg_of_neg_of_pos (by linarith) hp
  have c2 : (B + x) / |y| > 0 := div_pos (by linarith) hp
  simp only [calcA, limits, if_pos (And.intro c1 c2), if_true, integrIf]
  have e1 : |y| * exp (log (-((x - B) / |y|))) = B - x := by
    rw [exp_log (by linarith)]; field_simp; ring
  have e2 : |y| * exp (log ((B + x) / |y|)) = B + x := by
    rw [exp_log c2]; field_simp
  congr 1
  congr 1
  · split_ifs with h
    · rw [subst_p _ _ _ _ _ hy h.le, e1, min_eq_left]
      · rw [cut]; congr 1; ring
      · have := mul_lt_mul_of_pos_left (exp_lt_exp.2 h) hp
        rw [e1] at this; rw [cut]; linarith
    · have := mul_le_mul_of_nonneg_left (exp_le_exp.2 (not_lt.1 h)) hp.le
      rw [e1] at this
      rw [min_eq_right (by rw [cut]; linarith), intervalIntegral.integral_same]
  · split_ifs with h
    · rw [subst_m _ _ _ _ _ hy h.le, e2, max_eq_left]
      · rw [cut]; congr 1; ring
      · have := mul_lt_mul_of_pos_left (exp_lt_exp.2 h) hp
        rw [e2] at this; rw [cut]; linarith
    · have := mul_le_mul_of_nonneg_left (exp_le_exp.2 (not_lt.1 h)) hp.le
      rw [e2] at this
      rw [max_eq_right (by rw [cut]; linarith), intervalIntegral.integral_same]

/-- Outside the band: the whole band, exactly once. -/
theorem calcA_outside (x y B d : ℝ) (f1 : ℝ → ℝ) (hy : y ≠ 0) (hB : 0 < B) (h : x < -B ∨ B < x) :
    calcA x y B (f3p x y f1) (f3m x y f1) d = ∫ w in (-B)..B, f1 w := by
  have hp : 0 < |y| := abs_pos.2 hy
  rcases h with h | h
  · have c1 : (x - B) / |y| < 0 := div_neg_of_neg_of_pos (by linarith) hp
    have c2 : (B + x) / |y| < 0 := div_neg_of_neg_of_pos (by linarith) hp
    have hlt : log (-((B + x) / |y|)) < log (-((x - B) / |y|)) := by
      apply log_lt_log (by linarith)
      rw [neg_lt_neg_iff, div_lt_div_iff_of_pos_right hp]; linarith
    simp only [calcA, limits, if_neg (fun h : _ ∧ _ => absurd h.2 (not_lt.2 c2.le)),
      if_neg (fun h : (x - B) / |y| > 0 ∧ _ => absurd h.1 (not_lt.2 c1.le)), if_pos (And.intro c1 c2), integrIf,
      if_pos hlt, Bool.false_eq_true, if_false]
    rw [if_neg (by norm_num), subst_p _ _ _ _ _ hy hlt.le, exp_log (by linarith), exp_log (by linarith)]
    rw [add_zero, add_zero]
    congr 1 <;> field_simp <;> ring
  · have c1 : (x - B) / |y| > 0 := div_pos (by linarith) hp
    have c2 : (B + x) / |y| > 0 := div_pos (by linarith) hp
    have hlt : log ((x - B) / |y|) < log ((B + x) / |y|) := by
      apply log_lt_log c1
      rw [div_lt_div_iff_of_pos_right hp]; linarith
    simp only [calcA, limits, if_neg (fun h : (x - B) / |y| < 0 ∧ _ => absurd h.1 (not_lt.2 c1.le)),
      if_pos (And.intro c1 c2), integrIf, if_pos hlt, Bool.false_eq_true, if_false]
    rw [if_neg (by norm_num), subst_m _ _ _ _ _ hy hlt.le, exp_log c1, exp_log c2]
    rw [add_zero, zero_add]
    congr 1 <;> field_simp <;> ring

/-- On the edges of the band: no integral at all. -/
theorem calcA_edge (x y B d : ℝ) (f1 : ℝ → ℝ) (hB : 0 < B) (h : x = -B ∨ x = B) :
    calcA x y B (f3p x y f1) (f3m x y f1) d = d := by
  have : ¬ (1 : ℝ) < -1 := by norm_num
  rcases h with rfl | rfl <;> simp [calcA, limits, integrIf, this]

/-! ### The transform -/

/-- `ρ` is a spectral function on the band `[-B, B]`: integrable, and zero outside. -/
structure OnBand (rho : ℝ → ℝ) (B : ℝ) : Prop where
  integrable : IntervalIntegrable rho volume (-B) B
  outside : ∀ x, x < -B ∨ B < x → rho x = 0

theorem quot_integrable {rho : ℝ → ℝ} {a b : ℝ} (h : IntervalIntegrable rho volume a b) {k : ℝ → ℝ}
    (hk : Continuous k) {y : ℝ} (hy : y ≠ 0) (x : ℝ) :
    IntervalIntegrable (fun w => rho w * k w / (y ^ 2 + (x - w) ^ 2)) volume a b := by
  have hc : Continuous fun w => k w / (y ^ 2 + (x - w) ^ 2) :=
    Continuous.div hk (by fun_prop) fun w => (den_pos hy _).ne'
  have := h.mul_continuousOn (g := fun w => k w / (y ^ 2 + (x - w) ^ 2)) hc.continuousOn
  refine this.congr ?_
  intro w _
  simp only [mul_div_assoc]

/-- The subtracted integrand is integrable, and its integral is the difference between the
transform and the analytic part. -/
theorem subtract (x y B : ℝ) (hy : y ≠ 0) {r m : ℝ → ℝ} (hr : IntervalIntegrable r volume (-B) B)
    (hm : IntervalIntegrable m volume (-B) B) :
    (IntervalIntegrable (ref1 x y r m) volume (-B) B ∧
      ∫ w in (-B)..B, ref0 x y r m w = (∫ w in (-B)..B, ref1 x y r m w) + (r x * reQ x y B - m x * imQ x y B)) ∧
    (IntervalIntegrable (imf1 x y r m) volume (-B) B ∧
      ∫ w in (-B)..B, imf0 x y r m w = (∫ w in (-B)..B, imf1 x y r m w) + (r x * imQ x y B + m x * reQ x y B)) := by
  have hcr : IntervalIntegrable (fun w => (x - w) / (y ^ 2 + (x - w) ^ 2)) volume (-B) B :=
    (Continuous.div (by fun_prop) (by fun_prop) fun w => (den_pos hy _).ne').intervalIntegrable _ _
  have hci : IntervalIntegrable (fun w => (-y) / (y ^ 2 + (x - w) ^ 2)) volume (-B) B :=
    (Continuous.div (by fun_prop) (by fun_prop) fun w => (den_pos hy _).ne').intervalIntegrable _ _
  have a1 := quot_integrable hr (k := fun w => x - w) (by fun_prop) hy x
  have a2 := quot_integrable hm (k := fun _ => y) (by fun_prop) hy x
  have b1 := quot_integrable hr (k := fun _ => -y) (by fun_prop) hy x
  have b2 := quot_integrable hm (k := fun w => x - w) (by fun_prop) hy x
  have h0 : IntervalIntegrable (ref0 x y r m) volume (-B) B := by
    refine (a1.add a2).congr ?_
    intro w _
    simp only [ref0, Pi.add_apply, add_div]
  have h0' : IntervalIntegrable (imf0 x y r m) volume (-B) B := by
    refine (b1.add b2).congr ?_
    intro w _
    simp only [imf0, Pi.add_apply, add_div]
  have e1 : ref1 x y r m = fun w => ref0 x y r m w - (r x * ((x - w) / (y ^ 2 + (x - w) ^ 2)) - m x * ((-y) / (y ^ 2 + (x - w) ^ 2))) := by
    funext w
    have := den_pos hy (x - w)
    simp only [ref1, ref0]
    field_simp
    ring
  have e2 : imf1 x y r m = fun w => imf0 x y r m w - (r x * ((-y) / (y ^ 2 + (x - w) ^ 2)) + m x * ((x - w) / (y ^ 2 + (x - w) ^ 2))) := by
    funext w
    have := den_pos hy (x - w)
    simp only [imf1, imf0]
    field_simp
    ring
  have hs := (hcr.const_mul (r x)).sub (hci.const_mul (m x))
  have hs' := (hci.const_mul (r x)).add (hcr.const_mul (m x))
  refine ⟨⟨by rw [e1]; exact h0.sub hs, ?_⟩, ⟨by rw [e2]; exact h0'.sub hs', ?_⟩⟩
  · rw [e1, intervalIntegral.integral_sub h0 hs, intervalIntegral.integral_sub (hcr.const_mul _) (hci.const_mul _),
      intervalIntegral.integral_const_mul, intervalIntegral.integral_const_mul, integral_re x y B hy, integral_im x y B hy]
    ring
  · rw [e2, intervalIntegral.integral_sub h0' hs', intervalIntegral.integral_add (hci.const_mul _) (hcr.const_mul _),
      intervalIntegral.integral_const_mul, intervalIntegral.integral_const_mul, integral_re x y B hy, integral_im x y B hy]
    ring

/-- **C59, direct integration.** For `|y|` at or above the limit the result is the transform. -/
theorem hilbert_direct (rhor rhoi : ℝ → ℝ) (B x y lim : ℝ) (h : lim ≤ |y|) :
    hilbertRe rhor rhoi B x y lim = exactRe rhor rhoi B x y ∧ hilbertIm rhor rhoi B x y lim = exactIm rhor rhoi B x y := by
  rw [exactRe_eq, exactIm_eq]
  simp only [hilbertRe, hilbertIm, calcPart, if_neg (not_lt.2 h), and_self]

/-- **C59, outside the band.** For `x` outside the band the result is the transform. -/
theorem hilbert_outside (rhor rhoi : ℝ → ℝ) (B x y lim : ℝ) (hB : 0 < B) (hr : OnBand rhor B) (hm : OnBand rhoi B)
    (hy : y ≠ 0) (hx : x < -B ∨ B < x) :
    hilbertRe rhor rhoi B x y lim = exactRe rhor rhoi B x y ∧ hilbertIm rhor rhoi B x y lim = exactIm rhor rhoi B x y := by
  by_cases hl : |y| < lim
  · have h1 := hr.outside x hx
    have h2 := hm.outside x hx
    obtain ⟨⟨-, hA⟩, ⟨-, hC⟩⟩ := subtract x y B hy hr.integrable hm.integrable
    rw [exactRe_eq, exactIm_eq, hA, hC]
    simp only [hilbertRe, hilbertIm, calcPart, if_pos hl, calcA_outside x y B _ _ hy hB hx, h1, h2, zero_mul, sub_zero,
      add_zero, and_self]
  · exact hilbert_direct _ _ _ _ _ _ (not_lt.1 hl)

/-- The middle part of an integral over the band. -/
theorem split_middle {f : ℝ → ℝ} {B a b : ℝ} (h : IntervalIntegrable f volume (-B) B) (h1 : -B ≤ a) (h2 : a ≤ b) (h3 : b ≤ B) :
    (∫ w in b..B, f w) + (∫ w in (-B)..a, f w) = (∫ w in (-B)..B, f w) - ∫ w in a..b, f w := by
  have sub : ∀ {c d}, -B ≤ c → c ≤ d → d ≤ B → IntervalIntegrable f volume c d := by
    intro c d hc hcd hd
    refine h.mono_set ?_
    rw [uIcc_of_le hcd, uIcc_of_le (by linarith)]
    exact Icc_subset_Icc hc hd
  have e1 := intervalIntegral.integral_add_adjacent_intervals (sub (le_refl _) h1 (h2.trans h3)) (sub h1 h2 h3)
  have e2 := intervalIntegral.integral_add_adjacent_intervals (sub (le_refl _) (h1.trans h2) h3) (sub (h1.trans h2) h3 (le_refl _))
  linarith

/-- **C59, inside the band.** For `x` strictly inside the band the result differs from the
transform only by the integral of the subtracted integrand over the points of the band
within the distance `|y| e^(-36.8)` of `x`. -/
theorem hilbert_inside (rhor rhoi : ℝ → ℝ) (B x y lim : ℝ) (hr : OnBand rhor B) (hm : OnBand rhoi B)
    (hy : y ≠ 0) (h1 : -B < x) (h2 : x < B) (hl : |y| < lim) :
    hilbertRe rhor rhoi B x y lim = exactRe rhor rhoi B x y -
      ∫ w in (max (x - cut y) (-B))..(min (x + cut y) B), ref1 x y rhor rhoi w ∧
    hilbertIm rhor rhoi B x y lim = exactIm rhor rhoi B x y -
      ∫ w in (max (x - cut y) (-B))..(min (x + cut y) B), imf1 x y rhor rhoi w := by
  have hc := cut_pos hy
  have a1 : -B ≤ max (x - cut y) (-B) := le_max_right _ _
  have a2 : min (x + cut y) B ≤ B := min_le_right _ _
  have a3 : max (x - cut y) (-B) ≤ min (x + cut y) B :=
    (max_le (by linarith) h1.le).trans (le_min (by linarith) h2.le : x ≤ _)
  obtain ⟨⟨i1, hA⟩, ⟨i2, hC⟩⟩ := subtract x y B hy hr.integrable hm.integrable
  rw [exactRe_eq, exactIm_eq, hA, hC]
  simp only [hilbertRe, hilbertIm, calcPart, if_pos hl, calcA_inside x y B _ _ hy h1 h2, split_middle i1 a1 a3 a2,
    split_middle i2 a1 a3 a2]
  constructor <;> ring

/-- The bound on the subtracted integrands near the singularity. -/
theorem subtracted_bound {r m : ℝ → ℝ} {C x y w : ℝ} (hC : 0 ≤ C) (hy : y ≠ 0) (hr : |r w - r x| ≤ C * |w - x|)
    (hm : |m w - m x| ≤ C * |w - x|) : |ref1 x y r m w| ≤ 3 / 2 * C ∧ |imf1 x y r m w| ≤ 3 / 2 * C := by
  have hd := den_pos hy (x - w)
  have hwx : |w - x| = |x - w| := abs_sub_comm _ _
  rw [hwx] at hr hm
  have ha := abs_nonneg (x - w)
  have hb := abs_nonneg y
  have key : C * |x - w| * |x - w| + C * |x - w| * |y| ≤ 3 / 2 * C * (y ^ 2 + (x - w) ^ 2) := by
    rw [← sq_abs y, ← sq_abs (x - w)]
    nlinarith [mul_nonneg hC (sq_nonneg (|x - w| - |y|)), mul_nonneg hC (sq_nonneg |y|)]
  constructor
  · rw [ref1, abs_div, abs_of_pos hd, div_le_iff₀ hd]
    refine le_trans (abs_add_le _ _) (le_trans ?_ key)
    rw [abs_mul, abs_mul]
    exact add_le_add (mul_le_mul_of_nonneg_right hr ha) (mul_le_mul_of_nonneg_right hm hb)
  · rw [imf1, abs_div, abs_of_pos hd, div_le_iff₀ hd]
    refine le_trans (abs_add_le _ _) (le_trans ?_ key)
    rw [abs_mul, abs_mul, abs_neg]
    linarith [mul_le_mul_of_nonneg_right hr hb, mul_le_mul_of_nonneg_right hm ha]

/-- **C59, size of the error inside the band.** If the spectral function is Lipschitz
continuous with constant `C` near `x`, the error is at most `3 C |y| e^(-36.8)`. -/
theorem hilbert_inside_error (rhor rhoi : ℝ → ℝ) (B x y lim C : ℝ) (hr : OnBand rhor B) (hm : OnBand rhoi B)
    (hy : y ≠ 0) (h1 : -B < x) (h2 : x < B) (hl : |y| < lim) (hC : 0 ≤ C)
    (hLr : ∀ w, |w - x| ≤ cut y → |rhor w - rhor x| ≤ C * |w - x|)
    (hLm : ∀ w, |w - x| ≤ cut y → |rhoi w - rhoi x| ≤ C * |w - x|) :
    |hilbertRe rhor rhoi B x y lim - exactRe rhor rhoi B x y| ≤ 3 * C * (|y| * exp (-36.8)) ∧
    |hilbertIm rhor rhoi B x y lim - exactIm rhor rhoi B x y| ≤ 3 * C * (|y| * exp (-36.8)) := by
  obtain ⟨e1, e2⟩ := hilbert_inside rhor rhoi B x y lim hr hm hy h1 h2 hl
  have hc := cut_pos hy
  have a3 : max (x - cut y) (-B) ≤ min (x + cut y) B :=
    (max_le (by linarith) h1.le).trans (le_min (by linarith) h2.le : x ≤ _)
  have hlen : |min (x + cut y) B - max (x - cut y) (-B)| ≤ 2 * cut y := by
    rw [abs_of_nonneg (by linarith)]
    have := min_le_left (x + cut y) B
    have := le_max_left (x - cut y) (-B)
    linarith
  have hnear : ∀ w ∈ uIoc (max (x - cut y) (-B)) (min (x + cut y) B), |w - x| ≤ cut y := by
    intro w hw
    rw [uIoc_of_le a3] at hw
    have := le_max_left (x - cut y) (-B)
    have := min_le_left (x + cut y) B
    rw [abs_le]
    constructor <;> linarith [hw.1, hw.2]
  have key : ∀ f : ℝ → ℝ, (∀ w ∈ uIoc (max (x - cut y) (-B)) (min (x + cut y) B), |f w| ≤ 3 / 2 * C) →
      |∫ w in (max (x - cut y) (-B))..(min (x + cut y) B), f w| ≤ 3 * C * (|y| * exp (-36.8)) := by
    intro f hf
    have := intervalIntegral.norm_integral_le_of_norm_le_const (f := f) (C := 3 / 2 * C) fun w hw => by
      rw [norm_eq_abs]; exact hf w hw
    rw [norm_eq_abs] at this
    refine this.trans ?_
    have := mul_le_mul_of_nonneg_left hlen (show 0 ≤ 3 / 2 * C by positivity)
    refine this.trans (le_of_eq ?_)
    rw [cut, ln1016]; ring
  rw [e1, e2]
  constructor
  · rw [sub_sub_cancel_left, abs_neg]
    exact key _ fun w hw => (subtracted_bound hC hy (hLr w (hnear w hw)) (hLm w (hnear w hw))).1
  · rw [sub_sub_cancel_left, abs_neg]
    exact key _ fun w hw => (subtracted_bound hC hy (hLr w (hnear w hw)) (hLm w (hnear w hw))).2

/-! ### The edges of the band -/

/-- **C59 is violated on the edges of the band.** For every non-negative spectral function that
is continuous on the band, vanishes at the upper edge and does not vanish everywhere, and
`x` exactly at the edge: below the limit for direct integration the computed transform is
zero, while its exact real part is positive and its imaginary part has the opposite sign of `y`. -/
theorem hilbert_edge_wrong (rho : ℝ → ℝ) (B y lim : ℝ) (hB : 0 < B) (hc : ContinuousOn rho (Icc (-B) B))
    (hpos : ∀ w ∈ Icc (-B) B, 0 ≤ rho w) (hedge : rho B = 0) (hne : ∃ w ∈ Icc (-B) B, 0 < rho w)
    (hy : y ≠ 0) (hl : |y| < lim) :
    hilbertRe rho (fun _ => 0) B B y lim = 0 ∧ hilbertIm rho (fun _ => 0) B B y lim = 0 ∧
    0 < exactRe rho (fun _ => 0) B B y ∧ 0 < -(y * exactIm rho (fun _ => 0) B B y) := by
  refine ⟨?_, ?_, ?_, ?_⟩
  · simp only [hilbertRe, calcPart, if_pos hl, calcA_edge B y B _ _ hB (Or.inr rfl), hedge]; ring
  · simp only [hilbertIm, calcPart, if_pos hl, calcA_edge B y B _ _ hB (Or.inr rfl), hedge]; ring
  · rw [exactRe_eq]
    obtain ⟨w0, hw0, hp0⟩ := hne
    have hw : w0 ≠ B := fun h => by rw [h, hedge] at hp0; exact lt_irrefl _ hp0
    have hw' : w0 < B := lt_of_le_of_ne hw0.2 hw
    apply intervalIntegral.integral_pos (by linarith)
    · apply ContinuousOn.div
      · exact (hc.mul (by fun_prop)).add (by fun_prop)
      · fun_prop
      · exact fun w _ => (den_pos hy _).ne'
    · intro w hw
      simp only [ref0, zero_mul, add_zero]
      exact div_nonneg (mul_nonneg (hpos w ⟨hw.1.le, hw.2⟩) (by linarith [hw.2])) (den_pos hy _).le
    · refine ⟨w0, hw0, ?_⟩
      simp only [ref0, zero_mul, add_zero]
      exact div_pos (mul_pos hp0 (by linarith)) (den_pos hy _)
  · rw [exactIm_eq, ← neg_mul, ← intervalIntegral.integral_const_mul]
    obtain ⟨w0, hw0, hp0⟩ := hne
    have he : ∀ w, -y * imf0 B y rho (fun _ => 0) w = rho w * y ^ 2 / (y ^ 2 + (B - w) ^ 2) := by
      intro w
      simp only [imf0, zero_mul, add_zero]
      ring
    simp only [he]
    apply intervalIntegral.integral_pos (by linarith)
    · apply ContinuousOn.div
      · exact hc.mul (by fun_prop)
      · fun_prop
      · exact fun w _ => (den_pos hy _).ne'
    · intro w hw
      exact div_nonneg (mul_nonneg (hpos w ⟨hw.1.le, hw.2⟩) (sq_nonneg _)) (den_pos hy _).le
    · exact ⟨w0, hw0, div_pos (mul_pos hp0 (by positivity)) (den_pos hy _)⟩

/-! ### The built-in and tabulated spectral functions -/

/-- A tabulated function vanishes outside the band of its bandwidth. -/
theorem interpolated_outside (s : ℝ → ℝ) (Xmin Xmax x : ℝ) (h : x < -bandwidth Xmin Xmax ∨ bandwidth Xmin Xmax < x) :
    interpolated s Xmin Xmax x = 0 := by
  unfold interpolated bandwidth at *
  rw [if_neg]
  rintro ⟨h1, h2⟩
  rcases h with h | h
  · have := neg_abs_le Xmin
    have := le_max_left |Xmin| |Xmax|
    linarith
  · have := le_abs_self Xmax
    have := le_max_right |Xmin| |Xmax|
    linarith

/-- A tabulated function with a continuous spline is a spectral function on its band. -/
theorem interpolated_onBand (s : ℝ → ℝ) (hs : Continuous s) (Xmin Xmax : ℝ) :
    OnBand (interpolated s Xmin Xmax) (bandwidth Xmin Xmax) := by
  refine ⟨?_, fun x hx => interpolated_outside s Xmin Xmax x hx⟩
  have : interpolated s Xmin Xmax = (Icc Xmin Xmax).indicator s := by
    funext x
    by_cases h : x ∈ Icc Xmin Xmax
    · rw [indicator_of_mem h, interpolated, if_pos (mem_Icc.1 h)]
    · rw [indicator_of_notMem h, interpolated, if_neg (fun h' => h (mem_Icc.2 h'))]
  rw [this, intervalIntegrable_iff]
  exact ((intervalIntegrable_iff.1 (hs.intervalIntegrable _ _))).indicator measurableSet_Icc

/-- The semicircular density of states, `tools/hilb/hilb.hpp:292`, for `scale = 1`. -/
noncomputable def bethe (w : ℝ) : ℝ := if |w| < 1 then 2 / π * sqrt (1 - w ^ 2) else 0

theorem bethe_eq (w : ℝ) : bethe w = 2 / π * sqrt (1 - w ^ 2) := by
  unfold bethe
  split_ifs with h
  · rfl
  · have : 1 - w ^ 2 ≤ 0 := by
      have h1 := not_lt.1 h
      have := sq_abs w
      nlinarith
    rw [sqrt_eq_zero_of_nonpos this, mul_zero]

theorem bethe_continuous : Continuous bethe := by
  rw [show bethe = fun w => 2 / π * sqrt (1 - w ^ 2) from funext bethe_eq]
  fun_prop

/-- The semicircular density of states is a spectral function on `[-1, 1]`. -/
theorem bethe_onBand : OnBand bethe 1 := by
  refine ⟨bethe_continuous.intervalIntegrable _ _, fun x hx => ?_⟩
  unfold bethe
  rw [if_neg]
  rw [abs_lt]
  rintro ⟨h1, h2⟩
  rcases hx with h | h <;> linarith

/-- **C59 is violated for the built-in density of states**: at the band edge the program reports
zero for every small imaginary part. -/
theorem bethe_edge_wrong (y : ℝ) (hy : y ≠ 0) (hl : |y| < 1e-3) :
    hilbertRe bethe (fun _ => 0) 1 1 y 1e-3 = 0 ∧ hilbertIm bethe (fun _ => 0) 1 1 y 1e-3 = 0 ∧
    0 < exactRe bethe (fun _ => 0) 1 1 y ∧ 0 < -(y * exactIm bethe (fun _ => 0) 1 1 y) := by
  refine hilbert_edge_wrong bethe 1 y 1e-3 one_pos bethe_continuous.continuousOn ?_ ?_ ⟨0, by norm_num, ?_⟩ hy hl
  · intro w _
    rw [bethe_eq]; positivity
  · simp [bethe]
  · rw [bethe_eq]; simp; positivity

/-- The argument passed on by the streaming mode has a positive imaginary part, as the
theorems require, and equals `ω - Σ` whenever `Im Σ ≤ -10⁻⁸`. -/
theorem hilbArg_spec (l1 l2 x y : ℝ) : (hilbArg l1 l2 x y = none ↔ 1e-6 < |l1 - l2|) ∧
    ∀ a b, hilbArg l1 l2 x y = some (a, b) → a = l1 - x ∧ 1e-8 ≤ b ∧ (y ≤ -1e-8 → b = -y) := by
  unfold hilbArg
  constructor
  · split_ifs with h
    · simpa using h
    · simpa using h
  · intro a b h
    split_ifs at h
    obtain ⟨rfl, rfl⟩ := Prod.mk.inj (Option.some.inj h)
    refine ⟨rfl, ?_, fun hy => by rw [min_eq_left hy]⟩
    have := min_le_right y (-1e-8)
    linarith

/-- The hypotheses of the theorems above are met by the semicircular density of states. -/
example : hilbertRe bethe (fun _ => 0) 1 2 1e-4 1e-3 = exactRe bethe (fun _ => 0) 1 2 1e-4 :=
  (hilbert_outside bethe _ 1 2 1e-4 1e-3 one_pos bethe_onBand ⟨by simp, fun _ _ => rfl⟩ (by norm_num)
    (Or.inr (by norm_num))).1

end Verif.Tools.Hilb
