import Verif.Num.Model
import Mathlib.MeasureTheory.Integral.IntervalIntegral.FundThmCalculus
import Mathlib.Analysis.SpecialFunctions.ExpDeriv
import Mathlib.Analysis.Complex.ExponentialBounds
/-!
# C53, C54, C67
-/

namespace Verif.Num

/-! ## C54: tolerance-based comparison -/

section
variable {K : Type*} [Field K] [LinearOrder K] [IsStrictOrderedRing K]

theorem sgn_neg (x : K) : sgn (-x) = -sgn x := by
  unfold sgn
  rcases lt_trichotomy x 0 with h | h | h
  · have : ¬ -x < 0 := by simp; exact h.le
    simp [h.ne, h, this]
  · simp [h]
  · have : ¬ x < 0 := not_lt.2 h.le
    simp [h.ne', h, this]

/-- **C54.** Swapping the arguments reverses the verdict. -/
theorem fcmp_antisymm (x y se re : K) : fcmp y x se re = -fcmp x y se re := by
  unfold fcmp
  simp only [and_comm (a := y = 0), and_comm (a := |y| < se), abs_sub_comm y, add_comm |y|, ← neg_sub x y,
    sgn_neg, abs_neg]
  split_ifs <;> simp

/-- **C54.** A number equals itself, for any tolerances. -/
theorem fcmp_refl (x se re : K) : fcmp x x se re = 0 := by
  unfold fcmp; split_ifs <;> simp [sgn]

/-- **C54.** A common sign flip reverses the verdict. -/
theorem fcmp_neg (x y se re : K) : fcmp (-x) (-y) se re = -fcmp x y se re := by
  unfold fcmp
  have h : -x - -y = -(x - y) := by ring
  rw [h, sgn_neg]
  simp only [neg_eq_zero, abs_neg]
  split_ifs <;> simp

/-- **C54.** Two numbers are reported equal exactly when they are equal, both
below the absolute floor, or closer than the tolerance relative to the sum of
their magnitudes. -/
theorem fcmp_eq_zero (x y se re : K) :
    fcmp x y se re = 0 ↔ x = y ∨ (|x| < se ∧ |y| < se) ∨ |x - y| < re * (|x| + |y|) := by
  unfold fcmp
  split_ifs with h1 h2 h3
  · simp [h1.1, h1.2]
  · simp [h2]
  · simp [h3]
  · simp only [h2, h3, or_false]
    unfold sgn
    split_ifs with h4 h5
    · simp [sub_eq_zero.1 h4]
    · simp only [false_iff, reduceCtorEq]
      intro h; simp [h] at h4
    · simp only [false_iff, one_ne_zero]
      intro h; simp [h] at h4

/-- **C54.** When a difference is reported, its sign is the true one. -/
theorem fcmp_sign (x y se re : K) :
    (fcmp x y se re = 1 → y < x) ∧ (fcmp x y se re = -1 → x < y) ∧
    (fcmp x y se re = 1 ∨ fcmp x y se re = 0 ∨ fcmp x y se re = -1) := by
  unfold fcmp
  split_ifs with h1 h2 h3
  · simp
  · simp
  · simp
  · unfold sgn
    split_ifs with h4 h5
    · simp
    · simpa [sub_lt_zero] using h5
    · simp
      have : 0 < x - y := lt_of_le_of_ne (not_lt.1 h5) (Ne.symm h4)
      exact sub_pos.1 this

/-- **C54.** The test used in assertions, in the same terms. -/
theorem numEqual_iff (a b p : K) :
    numEqual a b p = true ↔ a = b ∨ (|a| < p ∧ |b| < p) ∨ |a - b| < p * (|a| + |b|) := by
  simp [numEqual, fcmp3, fcmp_eq_zero]

theorem numEqual_self (a p : K) : numEqual a a p = true := by simp [numEqual_iff]

/-- **C54.** Numbers below the limit in modulus become zero, all others stay. -/
theorem chop_spec (x limit : K) :
    (|x| < limit → chop x limit = 0) ∧ (limit ≤ |x| → chop x limit = x) := by
  refine ⟨fun h => if_pos h, fun h => if_neg (not_lt.2 h)⟩

/-- The comparison is a tolerance test, not an equivalence: it is not
transitive. -/
theorem fcmp_not_transitive :
    ∃ x y z : ℚ, fcmp x y (1/10) (1/10) = 0 ∧ fcmp y z (1/10) (1/10) = 0 ∧ fcmp x z (1/10) (1/10) ≠ 0 :=
  ⟨10, 12, 14, by decide +kernel, by decide +kernel, by decide +kernel⟩

example : fcmp (1 : ℚ) 2 (1/1000) (1/1000) = -1 ∧ fcmp (1 : ℚ) (10001/10000) (1/1000) (1/1000) = 0 ∧
    fcmp (1/10000 : ℚ) (-1/10000) (1/1000) (1/1000) = 0 := by
  refine ⟨?_, ?_, ?_⟩ <;> decide +kernel
end

/-! ## C53: susceptibility kernel -/

/-- Specification: the Boltzmann weight averaged over imaginary time,
`∫₀¹ exp(-((1-t) a + t b)) dt` for the two reduced energies `a`, `b`. -/
noncomputable def kernel (a b : ℝ) : ℝ := ∫ t in (0:ℝ)..1, Real.exp (-((1 - t) * a + t * b))

theorem kernel_eq (a b : ℝ) (h : a ≠ b) : kernel a b = (Real.exp (-b) - Real.exp (-a)) / (a - b) := by
  have hd : ∀ t ∈ Set.uIcc (0:ℝ) 1, HasDerivAt (fun t : ℝ => Real.exp (-((1 - t) * a + t * b)) / (a - b))
      (Real.exp (-((1 - t) * a + t * b))) t := by
    intro t _
    have h1 : HasDerivAt (fun t : ℝ => -((1 - t) * a + t * b)) (a - b) t := by
      have := (((hasDerivAt_id t).const_sub 1).mul_const a).add ((hasDerivAt_id t).mul_const b)
      have e : -(-1 * a + 1 * b) = a - b := by ring
      rw [← e]
      exact this.neg
    have h2 := (h1.exp).div_const (a - b)
    have : a - b ≠ 0 := sub_ne_zero.2 h
    rwa [mul_div_assoc, div_self this, mul_one] at h2
  have hi : IntervalIntegrable (fun t : ℝ => Real.exp (-((1 - t) * a + t * b))) MeasureTheory.volume 0 1 := by
    apply Continuous.intervalIntegrable
    fun_prop
  rw [kernel, intervalIntegral.integral_eq_sub_of_hasDerivAt hd hi]
  simp
  ring

theorem kernel_self (a : ℝ) : kernel a a = Real.exp (-a) := by
  have : (fun t : ℝ => Real.exp (-((1 - t) * a + t * a))) = fun _ => Real.exp (-a) := by
    funext t; congr 1; ring
  rw [kernel, this]; simp

theorem kernel_symm (a b : ℝ) : kernel a b = kernel b a := by
  by_cases h : a = b
  · rw [h]
  · rw [kernel_eq a b h, kernel_eq b a (Ne.symm h), ← neg_sub a b, ← neg_sub (Real.exp (-b)), neg_div_neg_eq]

theorem kernel_pos (a b : ℝ) : 0 < kernel a b := by
  rcases lt_trichotomy a b with h | h | h
  · rw [kernel_eq a b h.ne]
    apply div_pos_of_neg_of_neg
    · have := Real.exp_lt_exp.2 (neg_lt_neg h); linarith
    · linarith
  · rw [h, kernel_self]; exact Real.exp_pos _
  · rw [kernel_eq a b h.ne']
    apply div_pos
    · have := Real.exp_lt_exp.2 (neg_lt_neg h); linarith
    · linarith

/-- The kernel lies between the two Boltzmann weights. -/
theorem kernel_between (a b d : ℝ) (h : |a - b| ≤ d) :
    Real.exp (-d) * Real.exp (-b) ≤ kernel a b ∧ kernel a b ≤ Real.exp d * Real.exp (-b) := by
  have hc : Continuous (fun t : ℝ => Real.exp (-((1 - t) * a + t * b))) := by fun_prop
  have hi : IntervalIntegrable (fun t : ℝ => Real.exp (-((1 - t) * a + t * b))) MeasureTheory.volume 0 1 :=
    hc.intervalIntegrable 0 1
  have key : ∀ t ∈ Set.Icc (0:ℝ) 1, |(1 - t) * (a - b)| ≤ d := by
    intro t ht
    rw [abs_mul, abs_of_nonneg (by linarith [ht.2])]
    have : (1 - t) * |a - b| ≤ 1 * |a - b| := mul_le_mul_of_nonneg_right (by linarith [ht.1]) (abs_nonneg _)
    linarith
  constructor
  · have h1 : ∫ t in (0:ℝ)..1, (Real.exp (-d) * Real.exp (-b)) ≤ kernel a b := by
      apply intervalIntegral.integral_mono_on (by norm_num) (by simp) hi
      intro t ht
      rw [← Real.exp_add]
      apply Real.exp_le_exp.2
      have := abs_le.1 (key t ht)
      nlinarith [this.1, this.2]
    simpa using h1
  · have h1 : kernel a b ≤ ∫ t in (0:ℝ)..1, (Real.exp d * Real.exp (-b)) := by
      apply intervalIntegral.integral_mono_on (by norm_num) hi (by simp)
      intro t ht
      rw [← Real.exp_add]
      apply Real.exp_le_exp.2
      have := abs_le.1 (key t ht)
      nlinarith [this.1, this.2]
    simpa using h1

/-- **C53.** Away from degeneracy the weight is exactly the imaginary-time
average of the Boltzmann factor, and exchanging the levels changes nothing. -/
theorem chitWeight_exact (En Em beta : ℝ) (h : weightTol < |beta * En - beta * Em|) :
    chitWeight En Em beta = kernel (beta * En) (beta * Em) ∧
    chitWeight En Em beta = chitWeight Em En beta := by
  have ht : 0 < weightTol := by unfold weightTol; norm_num
  have e1 : ∀ a b : ℝ, weightTol < |beta * a - beta * b| → chitWeight a b beta = kernel (beta * a) (beta * b) := by
    intro a b hab
    have hne : beta * a ≠ beta * b := by
      intro hc
      rw [hc, sub_self, abs_zero] at hab
      exact absurd hab (not_lt.2 ht.le)
    unfold chitWeight
    simp only [gt_iff_lt, hab, if_true, kernel_eq _ _ hne]
  refine ⟨e1 _ _ h, ?_⟩
  rw [e1 _ _ h, e1 _ _ (by rwa [abs_sub_comm]), kernel_symm]

/-- **C53.** Everywhere the weight is positive and agrees with the exact kernel
to a relative accuracy of `exp(±10⁻⁸)`. -/
theorem chitWeight_accurate (En Em beta : ℝ) :
    0 < chitWeight En Em beta ∧
    Real.exp (-weightTol) * chitWeight En Em beta ≤ kernel (beta * En) (beta * Em) ∧
    kernel (beta * En) (beta * Em) ≤ Real.exp weightTol * chitWeight En Em beta := by
  have ht : 0 < weightTol := by unfold weightTol; norm_num
  by_cases h : weightTol < |beta * En - beta * Em|
  · rw [(chitWeight_exact En Em beta h).1]
    have hp := kernel_pos (beta * En) (beta * Em)
    refine ⟨hp, ?_, ?_⟩
    · have : Real.exp (-weightTol) ≤ 1 := Real.exp_le_one_iff.2 (by linarith)
      nlinarith
    · have : 1 ≤ Real.exp weightTol := Real.one_le_exp ht.le
      nlinarith
  · have e : chitWeight En Em beta = Real.exp (-(beta * Em)) := by
      unfold chitWeight; simp only [gt_iff_lt, h, if_false]
    rw [e]
    have := kernel_between (beta * En) (beta * Em) weightTol (not_lt.1 h)
    exact ⟨Real.exp_pos _, this.1, this.2⟩

/-- **C53.** Exchanging the two levels changes the weight by a relative factor
of at most `exp(2·10⁻⁸)`. -/
theorem chitWeight_symm_approx (En Em beta : ℝ) :
    chitWeight En Em beta ≤ Real.exp (2 * weightTol) * chitWeight Em En beta := by
  obtain ⟨_, h1, _⟩ := chitWeight_accurate En Em beta
  obtain ⟨_, _, h2⟩ := chitWeight_accurate Em En beta
  rw [kernel_symm] at h2
  have h3 := h1.trans h2
  have h4 := mul_le_mul_of_nonneg_left h3 (Real.exp_pos weightTol).le
  rw [← mul_assoc, ← Real.exp_add, ← mul_assoc, ← Real.exp_add] at h4
  simpa [two_mul] using h4

/-- The exchange is *not* exact inside the degenerate window: there the weight
of the second level is used. -/
theorem chitWeight_not_symm : ∃ En Em beta : ℝ, 0 < En ∧ 0 < Em ∧ 0 < beta ∧
    chitWeight En Em beta ≠ chitWeight Em En beta := by
  refine ⟨1, 1 + 1 / 1000000000, 1, by norm_num, by norm_num, by norm_num, ?_⟩
  have h1 : ¬ (weightTol < |1 * (1:ℝ) - 1 * (1 + 1 / 1000000000)|) := by
    unfold weightTol; norm_num
  have h2 : ¬ (weightTol < |1 * (1 + 1 / 1000000000) - 1 * (1:ℝ)|) := by
    unfold weightTol; norm_num
  unfold chitWeight
  simp only [gt_iff_lt, h1, h2, if_false]
  intro h
  have := Real.exp_injective h
  norm_num at this

example : weightTol < |(2:ℝ) * 3 - 2 * 1| := by unfold weightTol; norm_num

/-! ## C67: Fermi and Bose factors -/

theorem dblEps_pos : 0 < dblEps := by unfold dblEps; positivity
theorem dblMin_pos : 0 < dblMin := by unfold dblMin; positivity
theorem dblMax_pos : 1 < dblMax := by
  unfold dblMax
  have h1 : (1:ℝ) < 2 ^ 1023 := one_lt_pow₀ (by norm_num) (by norm_num)
  have h2 : (1:ℝ) / 2 ^ 52 ≤ 1 := by rw [div_le_one (by positivity)]; exact one_le_pow₀ (by norm_num)
  generalize (2:ℝ) ^ 1023 = M at *
  nlinarith

theorem exp_neg_le_of_ge_log {x : ℝ} (h : Real.log (2 / dblEps) ≤ x) : Real.exp (-x) ≤ dblEps / 2 := by
  have hp : 0 < 2 / dblEps := by have := dblEps_pos; positivity
  rw [Real.exp_neg]
  have : 2 / dblEps ≤ Real.exp x := by
    rw [← Real.exp_log hp]; exact Real.exp_le_exp.2 h
  calc (Real.exp x)⁻¹ ≤ (2 / dblEps)⁻¹ := inv_anti₀ hp this
    _ = dblEps / 2 := by rw [inv_div]

theorem exp_le_of_le_log {x : ℝ} (h : x ≤ Real.log dblMin) : Real.exp x ≤ dblMin := by
  rw [← Real.exp_log dblMin_pos]; exact Real.exp_le_exp.2 h

theorem logistic_alt (x : ℝ) : Real.exp x / (1 + Real.exp x) = 1 / (1 + Real.exp (-x)) := by
  rw [Real.exp_neg]
  have := Real.exp_pos x
  field_simp
  ring

/-- **C67.** The branch-wise Fermi factor equals `1/(1+exp(-x))` between the two
cut-offs, and differs from it by at most half a unit in the last place of 1
(right) or by the smallest normal number (left). -/
theorem sigmoid_spec (x : ℝ) :
    (Real.log dblMin < x → x < Real.log (2 / dblEps) → sigmoid x = 1 / (1 + Real.exp (-x))) ∧
    |sigmoid x - 1 / (1 + Real.exp (-x))| ≤ dblEps / 2 := by
  have hexp := Real.exp_pos (-x)
  have hmid : sigmoid x = 1 / (1 + Real.exp (-x)) ∨
      (Real.log (2 / dblEps) ≤ x ∧ sigmoid x = 1) ∨
      (x < Real.log (2 / dblEps) ∧ x ≤ Real.log dblMin ∧ sigmoid x = 0) := by
    unfold sigmoid
    by_cases h1 : x ≥ Real.log (2 / dblEps)
    · right; left; simp [h1]
    · by_cases h2 : x ≤ Real.log dblMin
      · right; right; simp [h1, h2, not_le.1 h1]
      · left
        by_cases h3 : x ≥ 0
        · simp [h1, h2, h3]
        · simp only [h1, h2, h3, if_false, logistic_alt]
  constructor
  · intro h1 h2
    rcases hmid with h | ⟨h, _⟩ | ⟨_, h, _⟩
    · exact h
    · exact absurd h (not_le.2 h2)
    · exact absurd h (not_le.2 h1)
  · rcases hmid with h | ⟨h, e⟩ | ⟨h0, h, e⟩
    · rw [h, sub_self, abs_zero]; have := dblEps_pos; positivity
    · rw [e]
      have h1 := exp_neg_le_of_ge_log h
      have h2 : 1 - 1 / (1 + Real.exp (-x)) = Real.exp (-x) / (1 + Real.exp (-x)) := by field_simp; ring
      rw [h2, abs_of_nonneg (by positivity)]
      calc Real.exp (-x) / (1 + Real.exp (-x)) ≤ Real.exp (-x) / 1 := by
            apply div_le_div_of_nonneg_left hexp.le (by norm_num) (by linarith)
        _ ≤ _ := by rw [div_one]; exact h1
    · rw [e, ← logistic_alt]
      have h1 := exp_le_of_le_log h
      have hx := Real.exp_pos x
      rw [zero_sub, abs_neg, abs_of_nonneg (by positivity)]
      have hmin : dblMin ≤ dblEps / 2 := by
        unfold dblMin dblEps
        rw [div_div, ← pow_succ]
        exact one_div_le_one_div_of_le (by positivity) (pow_le_pow_right₀ (by norm_num) (by norm_num))
      calc Real.exp x / (1 + Real.exp x) ≤ Real.exp x / 1 := by
            apply div_le_div_of_nonneg_left hx.le (by norm_num) (by linarith)
        _ ≤ _ := by rw [div_one]; exact h1.trans hmin

/-- **C67.** The Fermi factor stays in `[0,1]`. -/
theorem sigmoid_range (x : ℝ) : 0 ≤ sigmoid x ∧ sigmoid x ≤ 1 := by
  have h1 := Real.exp_pos (-x)
  have h2 := Real.exp_pos x
  unfold sigmoid
  split_ifs
  · norm_num
  · norm_num
  · exact ⟨by positivity, by rw [div_le_one (by positivity)]; linarith⟩
  · exact ⟨by positivity, by rw [div_le_one (by positivity)]; linarith⟩

/-- **C67.** `fermi_fnc` is the Fermi function of `-ω`: it rises from 0 to 1, is 1/2 at `ω = 0`, and
agrees with `1/(1+exp(-ω/T))` up to half a unit in the last place of 1. -/
theorem fermiFnc_spec (omega T : ℝ) (hT : 0 < T) :
    |fermiFnc omega T - 1 / (1 + Real.exp (-(omega / T)))| ≤ dblEps / 2 ∧
    fermiFnc 0 T = 1 / 2 ∧ (Real.log (2 / dblEps) * T ≤ omega → fermiFnc omega T = 1) := by
  refine ⟨(sigmoid_spec _).2, ?_, ?_⟩
  · have h0 : Real.log dblMin < 0 :=
      Real.log_neg dblMin_pos (by unfold dblMin; rw [div_lt_one (by positivity)]; exact one_lt_pow₀ (by norm_num) (by norm_num))
    have h1 : 0 < Real.log (2 / dblEps) := by
      apply Real.log_pos
      rw [lt_div_iff₀ dblEps_pos]
      unfold dblEps; norm_num
    unfold fermiFnc
    rw [zero_div, (sigmoid_spec 0).1 h0 h1]
    norm_num
  · intro h
    unfold fermiFnc sigmoid
    rw [if_pos ((le_div_iff₀ hT).2 h)]

/-- The exact Bose factor. -/
noncomputable def bose (x : ℝ) : ℝ := 1 / (1 - Real.exp (-x))

theorem bose_alt {x : ℝ} (hx : x ≠ 0) : Real.exp x / (Real.exp x - 1) = bose x := by
  unfold bose
  rw [Real.exp_neg]
  have h := Real.exp_pos x
  have h1 : Real.exp x - 1 ≠ 0 := by
    intro hc
    have : Real.exp x = Real.exp 0 := by rw [Real.exp_zero]; linarith
    exact hx (Real.exp_injective this)
  have h2 : 1 - (Real.exp x)⁻¹ ≠ 0 := by
    intro hc
    apply h1
    field_simp at hc
    linarith
  field_simp

/-- **C67.** The branch-wise Bose factor equals `1/(1-exp(-x))` between the
cut-offs and differs from it by at most one unit in the last place of 1 wherever
it is finite. -/
theorem bose_spec (x y : ℝ) (h : invOneMinusExpNeg x = .fin y) :
    (Real.log dblMin < x → x < Real.log (2 / dblEps) → y = bose x) ∧ |y - bose x| ≤ dblEps := by
  have heps := dblEps_pos
  have heps1 : dblEps ≤ 1 := by
    unfold dblEps; rw [div_le_one (by positivity)]; exact one_le_pow₀ (by norm_num)
  unfold invOneMinusExpNeg copysignInf at h
  split_ifs at h with h0 h1 h2 h3 h4 h5 h6
  · obtain rfl := Ext.fin.inj h
    refine ⟨fun _ h => absurd h4 (not_le.2 h), ?_⟩
    have e := exp_neg_le_of_ge_log h4
    have hp := Real.exp_pos (-x)
    have hd : 0 < 1 - Real.exp (-x) := by linarith
    have : 1 - bose x = -(Real.exp (-x) / (1 - Real.exp (-x))) := by
      unfold bose; field_simp; ring
    rw [this, abs_neg, abs_of_nonneg (by positivity), div_le_iff₀ hd]
    nlinarith
  · obtain rfl := Ext.fin.inj h
    refine ⟨fun h _ => absurd h5 (not_le.2 h), ?_⟩
    have e := exp_le_of_le_log h5
    have hp := Real.exp_pos x
    have hmin : dblMin ≤ dblEps / 2 := by
      unfold dblMin dblEps
      rw [div_div, ← pow_succ]
      exact one_div_le_one_div_of_le (by positivity) (pow_le_pow_right₀ (by norm_num) (by norm_num))
    rw [← bose_alt h0]
    have hd : 0 < 1 - Real.exp x := by linarith
    rw [zero_sub, abs_neg]
    have : Real.exp x / (Real.exp x - 1) = -(Real.exp x / (1 - Real.exp x)) := by
      rw [← neg_sub 1 (Real.exp x), div_neg]
    rw [this, abs_neg, abs_of_nonneg (by positivity), div_le_iff₀ hd]
    nlinarith
  · obtain rfl := Ext.fin.inj h
    have : -1 / (Real.exp (-x) - 1) = bose x := by
      unfold bose; rw [← neg_sub 1 (Real.exp (-x)), neg_div_neg_eq]
    rw [this, sub_self, abs_zero]
    exact ⟨fun _ _ => rfl, heps.le⟩
  · obtain rfl := Ext.fin.inj h
    rw [bose_alt h0, sub_self, abs_zero]
    exact ⟨fun _ _ => rfl, heps.le⟩

/-- **C67.** An infinite result is returned only at the pole or where the exact
value exceeds the largest representable number (less one), with its sign. -/
theorem bose_infinite (x : ℝ) :
    (invOneMinusExpNeg x = .posInf → x = 0 ∨ (0 < x ∧ dblMax ≤ bose x)) ∧
    (invOneMinusExpNeg x = .negInf → x < 0 ∧ bose x ≤ -(dblMax - 1)) := by
  have hM := dblMax_pos
  have key : |x| ≤ 1 / dblMax → (0 < x → dblMax ≤ bose x) ∧ (x < 0 → bose x ≤ -(dblMax - 1)) := by
    intro hx
    constructor
    · intro h
      rw [abs_of_pos h] at hx
      unfold bose
      have h1 : 1 - Real.exp (-x) ≤ x := by have := Real.add_one_le_exp (-x); linarith
      have h2 : 0 < 1 - Real.exp (-x) := by
        have : Real.exp (-x) < 1 := by rw [← Real.exp_zero]; exact Real.exp_lt_exp.2 (by linarith)
        linarith
      rw [le_div_iff₀ h2]
      have h3 : dblMax * x ≤ 1 := by
        rw [le_div_iff₀ (by linarith)] at hx; linarith
      nlinarith
    · intro h
      rw [abs_of_neg h] at hx
      have h3 : dblMax * (-x) ≤ 1 := by
        rw [le_div_iff₀ (by linarith)] at hx; linarith
      unfold bose
      have h4 : Real.exp (-x) * (1 + x) ≤ 1 := by
        have h5 : 1 + x ≤ Real.exp x := by linarith [Real.add_one_le_exp x]
        calc Real.exp (-x) * (1 + x) ≤ Real.exp (-x) * Real.exp x :=
              mul_le_mul_of_nonneg_left h5 (Real.exp_pos _).le
          _ = 1 := by rw [← Real.exp_add]; simp
      have h6 : 1 < Real.exp (-x) := by
        have := Real.add_one_lt_exp (show -x ≠ 0 by linarith); linarith
      have hd : 0 < Real.exp (-x) - 1 := by linarith
      have : 1 / (1 - Real.exp (-x)) = -(1 / (Real.exp (-x) - 1)) := by
        rw [← neg_sub (Real.exp (-x)) 1, div_neg]
      rw [this, neg_le_neg_iff, le_div_iff₀ hd]
      -- (M-1)(e-1) ≤ 1, with  e (1+x) ≤ 1  and  M(-x) ≤ 1
      have hx1 : -x < 1 := by nlinarith
      nlinarith
  have hcs : ∀ z : ℝ, (copysignInf z = .posInf → 0 ≤ z) ∧ (copysignInf z = .negInf → z < 0) := by
    intro z; unfold copysignInf; split_ifs with h
    · simp [h]
    · simpa using h
  unfold invOneMinusExpNeg
  split_ifs with h0 h1
  · exact ⟨fun _ => Or.inl h0, fun h => absurd ((hcs x).2 h) (by rw [h0]; exact lt_irrefl _)⟩
  · refine ⟨fun h => ?_, fun h => ?_⟩
    · have := lt_of_le_of_ne ((hcs x).1 h) (Ne.symm h0)
      exact Or.inr ⟨this, (key h1).1 this⟩
    · have := (hcs x).2 h
      exact ⟨this, (key h1).2 this⟩
  all_goals exact ⟨fun h => (nomatch h), fun h => (nomatch h)⟩

/-- The cut-offs leave a non-trivial middle region. -/
example : Real.log dblMin < 1 ∧ (1:ℝ) < Real.log (2 / dblEps) := by
  constructor
  · have : Real.log dblMin < 0 := Real.log_neg dblMin_pos (by
      unfold dblMin; rw [div_lt_one (by positivity)]; exact one_lt_pow₀ (by norm_num) (by norm_num))
    linarith
  · rw [Real.lt_log_iff_exp_lt (by have := dblEps_pos; positivity)]
    have h1 := Real.exp_one_lt_three
    have : (4:ℝ) ≤ 2 / dblEps := by unfold dblEps; norm_num
    linarith

end Verif.Num
