import Verif.Broad.Lemmas
import Mathlib.Data.List.GetD
/-!
# Properties of the broadening kernels

C83: a broadened spectrum is normalised and positive.  C84: the integrals printed for testing
the sum rules are consistent.
-/

namespace Verif.Broad
open MeasureTheory Real Set

/-! ## C83 -/

theorem mixed_normalised {alpha omega0 : ℝ} (ha : 0 < alpha) (ho : 0 < omega0) (ept : ℝ) :
    Integrable (fun e => logGauss alpha e ept * brH0 alpha omega0 ept + brG omega0 e ept * (1 - brH0 alpha omega0 ept)) ∧
    ∫ e, (logGauss alpha e ept * brH0 alpha omega0 ept + brG omega0 e ept * (1 - brH0 alpha omega0 ept)) = 1 := by
  have hG := brG_integrable ho ept
  by_cases h0 : ept = 0
  · subst h0
    have hh : brH0 alpha omega0 0 = 0 := by simp [brH0, not_lt.2 ho.le]
    simp only [hh, logGauss_zero, zero_mul, sub_zero, mul_one, zero_add]
    exact ⟨hG, brG_integral ho 0⟩
  · obtain ⟨hL, hLi⟩ := logGauss_integral ha h0
    refine ⟨(hL.mul_const _).add (hG.mul_const _), ?_⟩
    rw [integral_add (hL.mul_const _) (hG.mul_const _), integral_mul_const, integral_mul_const, hLi, brG_integral ho ept]
    ring

/-- **C83.** With option `-g`, or with option `-n` and no accumulation point, the kernel
integrates to one over the output energy, for a peak at any energy, zero included. -/
theorem kernel_normalised_partial (S : Settings) (hS : S.OK)
    (h : S.gaussian = true ∨ (S.normalization = true ∧ S.accumulation = 0)) (ept : ℝ) :
    Integrable (fun e => bfnc S e ept) ∧ ∫ e, bfnc S e ept = 1 := by
  by_cases hg : S.gaussian = true
  · simp only [bfnc, hg, if_true]
    exact ⟨brG_integrable hS.alpha ept, brG_integral hS.alpha ept⟩
  · obtain ⟨hn, hacc⟩ := h.resolve_left hg
    simp only [bfnc, if_neg hg, brH, if_pos hn, hacc, brL_zero]
    exact mixed_normalised hS.alpha hS.omega0 ept

example : (⟨0.3, 0.01, 0, true, false⟩ : Settings).OK := ⟨by norm_num, by norm_num⟩

/-- **C83.** The broadened spectrum has the total weight of the peaks. -/
theorem broadened_weight_partial (S : Settings) (hS : S.OK)
    (h : S.gaussian = true ∨ (S.normalization = true ∧ S.accumulation = 0)) (peaks : List (ℝ × ℝ)) :
    Integrable (broadenAt S peaks) ∧ ∫ m, broadenAt S peaks m = (peaks.map Prod.snd).sum := by
  induction peaks with
  | nil =>
    have h0 : broadenAt S [] = fun _ => 0 := by funext m; simp [broadenAt]
    simp [h0]
  | cons p ps ih =>
    obtain ⟨hi, hv⟩ := kernel_normalised_partial S hS h p.1
    have hf : broadenAt S (p :: ps) = fun m => p.2 * bfnc S m p.1 + broadenAt S ps m := by
      funext m; simp [broadenAt]
    rw [hf]
    refine ⟨(hi.const_mul _).add ih.1, ?_⟩
    rw [integral_add (hi.const_mul _) ih.1, integral_const_mul, hv, ih.2]
    simp

theorem brL_nonneg {alpha : ℝ} (ha : 0 < alpha) (acc e ept : ℝ) : 0 ≤ brL alpha acc e ept :=
  logGauss_nonneg ha _ _

/-- **C83.** Whatever the options, the kernel is never negative, and the cross-over function
lies between zero and one, so the assertion in the code holds. -/
theorem kernel_nonneg (S : Settings) (hS : S.OK) (e ept : ℝ) :
    0 ≤ bfnc S e ept ∧ 0 ≤ brH S e ept ∧ brH S e ept ≤ 1 := by
  obtain ⟨h0, h1⟩ := brH_range S e ept
  refine ⟨?_, h0, h1⟩
  simp only [bfnc]
  split
  · exact (brG_pos hS.alpha e ept).le
  · exact add_nonneg (mul_nonneg (brL_nonneg hS.alpha _ _ _) h0)
      (mul_nonneg (brG_pos hS.omega0 e ept).le (sub_nonneg.2 h1))

/-- **C83.** A spectrum of non-negative weights gives a non-negative function at every point
of the mesh. -/
theorem broadened_nonneg (S : Settings) (hS : S.OK) (peaks : List (ℝ × ℝ)) (hw : ∀ p ∈ peaks, 0 ≤ p.2)
    (mesh : List ℝ) : (broaden S peaks mesh).length = mesh.length ∧ ∀ y ∈ broaden S peaks mesh, 0 ≤ y := by
  refine ⟨by simp [broaden], fun y hy => ?_⟩
  obtain ⟨m, -, rfl⟩ := List.mem_map.1 hy
  refine List.sum_nonneg fun t ht => ?_
  obtain ⟨p, hp, rfl⟩ := List.mem_map.1 ht
  exact mul_nonneg (hw p hp) (kernel_nonneg S hS m p.1).1

/-- **C83.** The kernels are symmetric in their two arguments, as their comments say; for the
logarithmic one: for two energies different from zero. -/
theorem kernel_symmetric {alpha : ℝ} (ha : 0 < alpha) (omega0 e ept : ℝ) :
    (e ≠ 0 → ept ≠ 0 → logGauss alpha e ept = logGauss alpha ept e) ∧ brG omega0 e ept = brG omega0 ept e := by
  constructor
  · intro he hept
    have key : ∀ a b : ℝ, 0 < a → 0 < b → logGauss alpha a b = logGauss alpha b a := by
      intro a b hpa hpb
      have form : ∀ x y : ℝ, 0 < x → 0 < y → logGauss alpha x y =
          exp (-((log x - log y) ^ 2 / alpha ^ 2 + alpha ^ 2 / 16) - (log x + log y) / 2) / (alpha * sqrt π) := by
        intro x y hx hy
        simp only [logGauss]
        rw [if_neg (by rintro (⟨h1, _⟩ | ⟨_, h1⟩) <;> linarith), if_neg hy.ne', abs_of_pos hx, log_div hx.ne' hy.ne']
        have h1 : exp (-((log x - log y) ^ 2 / alpha ^ 2 + alpha ^ 2 / 16) - (log x + log y) / 2) =
            exp (-((log x - log y) / alpha - alpha / 4) ^ 2) / x := by
          conv_rhs => rw [← exp_log hx, ← exp_sub, exp_log hx]
          congr 1
          field_simp
          ring
        rw [h1]
        field_simp
      rw [form a b hpa hpb, form b a hpb hpa]
      congr 2
      ring
    rcases lt_or_gt_of_ne he with h | h <;> rcases lt_or_gt_of_ne hept with h' | h'
    · rw [← logGauss_neg alpha e, ← logGauss_neg alpha ept]
      exact key _ _ (neg_pos.2 h) (neg_pos.2 h')
    · simp [logGauss, h, h']
    · simp [logGauss, h, h']
    · exact key _ _ h h'
  · simp only [brG]
    congr 2
    rw [← neg_sub ept e]
    ring

example : (0.3 : ℝ) ≠ 0 ∧ (-2 : ℝ) ≠ 0 := by norm_num

/-- **C83, what the code does without option `-n`.** The cross-over function then depends on
the output energy, and a peak at zero energy loses part of its weight. -/
theorem zero_peak_loses_weight (S : Settings) (hS : S.OK) (hg : S.gaussian = false) (hn : S.normalization = false)
    (hacc : 0 ≤ S.accumulation) : ∫ e, bfnc S e 0 < 1 := by
  have hG := brG_integrable hS.omega0 0
  have hsh : ∀ e, brL S.alpha S.accumulation e 0 = 0 := by
    intro e
    rw [brL, shift_other (by rintro ⟨_, h⟩; linarith) (by rintro ⟨_, h⟩; linarith)]
    exact logGauss_zero _ _
  have hf : (fun e => bfnc S e 0) = fun e => brG S.omega0 e 0 - brG S.omega0 e 0 * brH0 S.alpha S.omega0 e := by
    funext e
    simp only [bfnc, hg, hn, brH, hsh]
    simp only [Bool.false_eq_true, if_false]
    ring
  have hGH : Integrable fun e => brG S.omega0 e 0 * brH0 S.alpha S.omega0 e := by
    refine hG.mul_bdd (c := 1) (brH0_measurable _ _).aestronglyMeasurable (ae_of_all _ fun e => ?_)
    rw [norm_eq_abs, abs_of_nonneg (brH0_range e).1]
    exact (brH0_range e).2
  rw [hf, integral_sub hG hGH, brG_integral hS.omega0]
  have hpos : 0 < ∫ e, brG S.omega0 e 0 * brH0 S.alpha S.omega0 e := by
    rw [integral_pos_iff_support_of_nonneg (fun e => mul_nonneg (brG_pos hS.omega0 e 0).le (brH0_range e).1) hGH]
    have hsub : Ioi S.omega0 ⊆ Function.support fun e => brG S.omega0 e 0 * brH0 S.alpha S.omega0 e := by
      intro e he
      have h1 : S.omega0 < |e| := lt_of_lt_of_le he (le_abs_self e)
      simp only [Function.mem_support, brH0, if_pos h1, mul_one]
      exact (brG_pos hS.omega0 e 0).ne'
    refine lt_of_lt_of_le ?_ (measure_mono hsub)
    simp
  linarith

example : (⟨0.3, 0.01, 0, false, false⟩ : Settings).OK ∧ (0 : ℝ) ≤ 0 := ⟨⟨by norm_num, by norm_num⟩, le_rfl⟩

theorem brL_form {alpha acc ept : ℝ} (ha : 0 < acc) (hept : acc < ept) :
    (fun e => brL alpha acc e ept) = fun e => indicator (Ioi acc) (fun e => logGauss alpha (e - acc) (ept - acc)) e +
      indicator (Iic acc) (fun e => logGauss alpha e ept) e := by
  funext e
  by_cases he : acc < e
  · rw [indicator_of_mem (show e ∈ Ioi acc from he), indicator_of_notMem (show e ∉ Iic acc from not_le.2 he),
      brL, shift_above ha.le he hept, add_zero]
  · rw [indicator_of_notMem (show e ∉ Ioi acc from he), indicator_of_mem (show e ∈ Iic acc from not_lt.1 he),
      brL, shift_other (fun h => he h.1) (by rintro ⟨_, h⟩; linarith), zero_add]

theorem logGauss_shifted {alpha acc ept : ℝ} (ha : 0 < alpha) (hept : acc < ept) :
    Integrable (fun e => indicator (Ioi acc) (fun e => logGauss alpha (e - acc) (ept - acc)) e) ∧
    ∫ e, indicator (Ioi acc) (fun e => logGauss alpha (e - acc) (ept - acc)) e = 1 := by
  have hp : 0 < ept - acc := sub_pos.2 hept
  have hf : (fun e => indicator (Ioi acc) (fun e => logGauss alpha (e - acc) (ept - acc)) e) =
      fun e => logGauss alpha (e - acc) (ept - acc) := by
    funext e
    by_cases he : acc < e
    · rw [indicator_of_mem (show e ∈ Ioi acc from he)]
    · rw [indicator_of_notMem (show e ∉ Ioi acc from he)]
      rcases lt_or_eq_of_le (not_lt.1 he) with h | h
      · simp [logGauss, h, hept]
      · simp [logGauss, h]
  rw [hf]
  obtain ⟨h1, h2⟩ := logGauss_integral ha hp.ne'
  exact ⟨h1.comp_sub_right acc, by rw [integral_sub_right_eq_self (fun e => logGauss alpha e (ept - acc))]; exact h2⟩

/-- **C83, accumulation point.** With an accumulation point `a > 0` the kernel of a peak above
it (and above `omega0`, with `-n`) integrates to one over the output energies beyond the
accumulation point, which is where the mesh lies; but not over all energies: the part of the
kernel between zero and the accumulation point comes on top. -/
theorem accumulation_weight (S : Settings) (hS : S.OK) (hg : S.gaussian = false) (hn : S.normalization = true)
    (hacc : 0 < S.accumulation) (ept : ℝ) (h1 : S.accumulation < ept) (h2 : S.omega0 < ept) :
    ∫ e in Ioi S.accumulation, bfnc S e ept = 1 ∧ 1 < ∫ e, bfnc S e ept := by
  have hh : brH0 S.alpha S.omega0 ept = 1 := by simp [brH0, lt_of_lt_of_le h2 (le_abs_self ept)]
  have hb : (fun e => bfnc S e ept) = fun e => brL S.alpha S.accumulation e ept := by
    funext e
    simp [bfnc, hg, hn, brH, hh]
  have hpos : 0 < ept := hacc.trans h1
  obtain ⟨hi, hv⟩ := logGauss_shifted hS.alpha h1
  have hlow : Integrable (fun e => indicator (Iic S.accumulation) (fun e => logGauss S.alpha e ept) e) :=
    (logGauss_integral hS.alpha hpos.ne').1.indicator measurableSet_Iic
  constructor
  · rw [hb, brL_form hacc h1, ← integral_indicator measurableSet_Ioi, ← hv]
    congr 1
    funext e
    by_cases he : e ∈ Ioi S.accumulation
    · rw [indicator_of_mem he, indicator_of_notMem (show e ∉ Iic S.accumulation from fun h => absurd (show S.accumulation < e from he) (not_lt.2 h)), add_zero]
    · rw [indicator_of_notMem he, indicator_of_notMem he]
  · rw [hb, brL_form hacc h1, integral_add hi hlow, hv]
    have : 0 < ∫ e, indicator (Iic S.accumulation) (fun e => logGauss S.alpha e ept) e := by
      rw [integral_pos_iff_support_of_nonneg _ hlow]
      · have hsub : Ioc 0 S.accumulation ⊆
            Function.support fun e => indicator (Iic S.accumulation) (fun e => logGauss S.alpha e ept) e := by
          intro e he
          simp only [Function.mem_support, indicator_of_mem (show e ∈ Iic S.accumulation from he.2)]
          exact (logGauss_support hS.alpha he.1 hpos).ne'
        refine lt_of_lt_of_le ?_ (measure_mono hsub)
        simp [hacc]
      · intro e
        exact indicator_nonneg (fun e _ => logGauss_nonneg hS.alpha e ept) e
    linarith

example : (⟨0.3, 0.01, 0.5, true, false⟩ : Settings).OK ∧ (0.5 : ℝ) < 1 ∧ (0.01 : ℝ) < 1 :=
  ⟨⟨by norm_num, by norm_num⟩, by norm_num, by norm_num⟩

/-- **C83.** The kernel of the main program is the one of the tool without options. -/
theorem main_kernel_agrees (alpha omega0 e ept : ℝ) :
    brNew alpha omega0 e ept = bfnc ⟨alpha, omega0, 0, false, false⟩ e ept := by
  simp only [brNew, bfnc, brH, brH0, brL_zero]
  simp only [Bool.false_eq_true, if_false]
  by_cases h : omega0 < |e|
  · simp [h]
  · simp only [if_neg h]

/-! ## The two final passes -/

theorem gaussianKernel_eq {sigma : ℝ} (hs : 0 < sigma) (x y : ℝ) : gaussianKernel x y sigma = brG (sqrt 2 * sigma) x y := by
  have h2 : sqrt 2 * sqrt 2 = 2 := mul_self_sqrt (by norm_num)
  have h2' : (sqrt 2) ^ 2 = 2 := sq_sqrt (by norm_num)
  simp only [gaussianKernel, brG]
  rw [sqrt_mul (by norm_num : (0 : ℝ) ≤ 2)]
  have e1 : -((x - y) / sigma) * ((x - y) / sigma) / 2 = -((x - y) / (sqrt 2 * sigma)) ^ 2 := by
    rw [div_pow, mul_pow, h2']
    field_simp
  rw [e1]
  have := sqrt_pi_pos
  have : 0 < sqrt 2 := sqrt_pos.2 (by norm_num)
  field_simp

/-- The Fermi function whose derivative is the kernel. -/
noncomputable def fermiStep (y sigma x : ℝ) : ℝ := (1 + exp (-((x - y) / sigma)))⁻¹

theorem derfd_deriv {sigma : ℝ} (hs : 0 < sigma) (x y : ℝ) :
    HasDerivAt (fermiStep y sigma) (derfdKernel x y sigma) x := by
  have h1 : HasDerivAt (fun x : ℝ => -((x - y) / sigma)) (-(1 / sigma)) x :=
    (((hasDerivAt_id x).sub_const y).div_const sigma).neg
  have h2 := (h1.exp.const_add 1).inv (by positivity)
  have h3 : -(exp (-((x - y) / sigma)) * -(1 / sigma)) / (1 + exp (-((x - y) / sigma))) ^ 2 = derfdKernel x y sigma := by
    simp only [derfdKernel, cosh_eq, exp_neg]
    have := exp_pos ((x - y) / sigma)
    field_simp
    ring
  rw [h3] at h2
  exact h2

theorem derfd_nonneg {sigma : ℝ} (hs : 0 < sigma) (x y : ℝ) : 0 ≤ derfdKernel x y sigma := by
  simp only [derfdKernel]
  have := cosh_pos ((x - y) / sigma)
  positivity

theorem fermiStep_top {sigma : ℝ} (hs : 0 < sigma) (y : ℝ) : Filter.Tendsto (fermiStep y sigma) Filter.atTop (nhds 1) := by
  have h1 : Filter.Tendsto (fun x : ℝ => exp (-((x - y) / sigma))) Filter.atTop (nhds 0) := by
    refine tendsto_exp_atBot.comp (Filter.tendsto_neg_atTop_atBot.comp ?_)
    exact (Filter.tendsto_atTop_add_const_right _ (-y) Filter.tendsto_id).atTop_div_const hs
  have h2 := (h1.const_add 1).inv₀ (by norm_num)
  rw [add_zero, inv_one] at h2
  exact h2

theorem derfd_integrable {sigma : ℝ} (hs : 0 < sigma) (y : ℝ) : Integrable fun x => derfdKernel x y sigma := by
  have hshift : (fun x => derfdKernel x y sigma) = fun x => derfdKernel (x - y) 0 sigma := by
    funext x; simp [derfdKernel]
  have hI : IntegrableOn (fun x => derfdKernel x 0 sigma) (Ioi 0) :=
    integrableOn_Ioi_deriv_of_nonneg' (fun x _ => derfd_deriv hs x 0) (fun x _ => derfd_nonneg hs x 0) (fermiStep_top hs 0)
  have hN : IntegrableOn (fun x => derfdKernel x 0 sigma) (Iic 0) := by
    rw [integrableOn_Iic_iff_integrableOn_Iio, ← integrable_indicator_iff measurableSet_Iio]
    have h := ((integrable_indicator_iff measurableSet_Ioi).2 hI).comp_neg
    refine h.congr (ae_of_all _ fun x => ?_)
    by_cases hx : x < 0
    · have h1 : -x ∈ Ioi (0 : ℝ) := neg_pos.2 hx
      have h2 : x ∈ Iio (0 : ℝ) := hx
      dsimp only
      rw [indicator_of_mem h1, indicator_of_mem h2]
      simp only [derfdKernel, sub_zero]
      rw [neg_div, cosh_neg]
    · have h1 : -x ∉ Ioi (0 : ℝ) := fun h => hx (neg_pos.1 h)
      have h2 : x ∉ Iio (0 : ℝ) := hx
      dsimp only
      rw [indicator_of_notMem h1, indicator_of_notMem h2]
  have hU := hN.union hI
  rw [Iic_union_Ioi, integrableOn_univ] at hU
  rw [hshift]
  exact hU.comp_sub_right y

/-- **C83.** The kernels of the two final passes are normalised and symmetric. -/
theorem final_kernels_normalised {sigma : ℝ} (hs : 0 < sigma) (y : ℝ) :
    (∫ x, gaussianKernel x y sigma = 1) ∧ (∫ x, derfdKernel x y sigma = 1) ∧
    (∀ x, 0 ≤ gaussianKernel x y sigma ∧ 0 ≤ derfdKernel x y sigma) ∧
    ∀ x, gaussianKernel x y sigma = gaussianKernel y x sigma ∧ derfdKernel x y sigma = derfdKernel y x sigma := by
  have hw : 0 < sqrt 2 * sigma := mul_pos (sqrt_pos.2 (by norm_num)) hs
  refine ⟨?_, ?_, fun x => ⟨?_, derfd_nonneg hs x y⟩, fun x => ⟨?_, ?_⟩⟩
  · simp only [gaussianKernel_eq hs]
    exact brG_integral hw y
  · have hbot : Filter.Tendsto (fermiStep y sigma) Filter.atBot (nhds 0) := by
      refine Filter.Tendsto.inv_tendsto_atTop ?_
      refine Filter.tendsto_atTop_add_const_left _ _ (tendsto_exp_atTop.comp ?_)
      refine Filter.tendsto_neg_atBot_atTop.comp ?_
      exact (Filter.tendsto_atBot_add_const_right _ (-y) Filter.tendsto_id).atBot_div_const hs
    have htop := fermiStep_top hs y
    have hint : Integrable fun x => derfdKernel x y sigma := derfd_integrable hs y
    rw [integral_of_hasDerivAt_of_tendsto (fun x => derfd_deriv hs x y) hint hbot htop]
    norm_num
  · rw [gaussianKernel_eq hs]
    exact (brG_pos hw x y).le
  · rw [gaussianKernel_eq hs, gaussianKernel_eq hs]
    exact (kernel_symmetric one_pos _ _ _).2
  · simp only [derfdKernel]
    rw [← neg_sub y x, neg_div, cosh_neg]

/-- **C83.** The final pass keeps the first and the last value, leaves values beyond the
cut-off unchanged, and keeps a non-negative spectrum non-negative on an ordered mesh. -/
theorem final_pass (kernel : ℝ → ℝ → ℝ → ℝ) (sigma : ℝ) (mesh a : List ℝ) (hlen : a.length = mesh.length) :
    (convolve kernel sigma mesh a).length = mesh.length ∧
    (∀ i < mesh.length, i = 0 ∨ i = mesh.length - 1 ∨ 100 * sigma ≤ |mesh.getD i 0| →
      (convolve kernel sigma mesh a).getD i 0 = a.getD i 0) ∧
    ((∀ x y, 0 ≤ kernel x y sigma) → mesh.Pairwise (· ≤ ·) → (∀ y ∈ a, 0 ≤ y) → ∀ y ∈ convolve kernel sigma mesh a, 0 ≤ y) := by
  have ha0 : (∀ y ∈ a, 0 ≤ y) → ∀ i, 0 ≤ a.getD i 0 := by
    intro h i
    by_cases hi : i < a.length
    · rw [List.getD_eq_getElem _ _ hi]; exact h _ (List.getElem_mem hi)
    · rw [List.getD_eq_default _ _ (not_lt.1 hi)]
  refine ⟨by simp [convolve], ?_, ?_⟩
  · intro i hi h
    rw [convolve, List.getD_eq_getElem _ _ (by simpa using hi)]
    simp only [List.getElem_map, List.getElem_range]
    by_cases h1 : i = 0 ∨ i = mesh.length - 1
    · rw [if_pos h1]
    · rw [if_neg h1, if_neg]
      rcases h with h | h | h
      · exact absurd (Or.inl h) h1
      · exact absurd (Or.inr h) h1
      · exact not_lt.2 h
  · intro hk hm hp y hy
    obtain ⟨i, hi, rfl⟩ := List.mem_map.1 hy
    dsimp only
    split
    · exact ha0 hp i
    · split
      · refine List.sum_nonneg fun t ht => ?_
        obtain ⟨j, hj, rfl⟩ := List.mem_map.1 ht
        rw [List.mem_range'_1] at hj
        refine mul_nonneg (ha0 hp j) (mul_nonneg (hk _ _) ?_)
        have h1 : mesh.getD (j - 1) 0 ≤ mesh.getD (j + 1) 0 := by
          rw [List.getD_eq_getElem _ _ (by omega), List.getD_eq_getElem _ _ (by omega)]
          exact List.pairwise_iff_getElem.1 hm _ _ _ _ (by omega)
        linarith
      · exact ha0 hp i

example : ([1, 2] : List ℝ).length = ([3, 4] : List ℝ).length := rfl

/-- **C83.** Within the cut-off the final pass replaces a value by the convolution with the
kernel, a point of the mesh standing for half the distance between its neighbours. -/
theorem final_pass_value (kernel : ℝ → ℝ → ℝ → ℝ) (sigma : ℝ) (mesh a : List ℝ) (i : ℕ) (h0 : 0 < i)
    (h1 : i + 1 < mesh.length) (h2 : |mesh.getD i 0| < 100 * sigma) :
    (convolve kernel sigma mesh a).getD i 0 = ∑ j ∈ Finset.Ico 1 (mesh.length - 1),
      a.getD j 0 * kernel (mesh.getD i 0) (mesh.getD j 0) sigma * ((mesh.getD (j + 1) 0 - mesh.getD (j - 1) 0) / 2) := by
  rw [convolve, List.getD_eq_getElem _ _ (by simpa using (by omega : i < mesh.length))]
  simp only [List.getElem_map, List.getElem_range]
  rw [if_neg (by omega), if_pos h2, Finset.sum_list_map_count]
  have hr : (List.range' 1 (mesh.length - 2)).toFinset = Finset.Ico 1 (mesh.length - 1) := by
    ext j; simp [List.mem_range'_1]; omega
  rw [hr]
  refine Finset.sum_congr rfl fun j hj => ?_
  have hc : List.count j (List.range' 1 (mesh.length - 2)) = 1 := by
    refine List.count_eq_one_of_mem (List.nodup_range') ?_
    rw [← List.mem_toFinset, hr]
    exact hj
  rw [hc, one_smul]
  ring

example : (0 : ℕ) < 1 ∧ 1 + 1 < ([-1, 0, 1] : List ℝ).length ∧ |([-1, 0, 1] : List ℝ).getD 1 0| < 100 * (1 : ℝ) := by
  refine ⟨by norm_num, by simp, ?_⟩
  simp

/-- **C83, what the final pass does not do.** The discrete kernel is not normalised
(`sum_kernel` is computed but not used): a constant spectrum does not stay constant. -/
theorem final_pass_not_conserving : convolve gaussianKernel 1 [-1, 0, 1] [1, 1, 1] ≠ [1, 1, 1] := by
  intro h
  have h1 : (convolve gaussianKernel 1 [-1, 0, 1] [1, 1, 1]).getD 1 0 = 1 := by rw [h]; rfl
  have h2 : (convolve gaussianKernel 1 [-1, 0, 1] [1, 1, 1]).getD 1 0 = 1 / sqrt (2 * π) := by
    simp [convolve, List.range_succ, gaussianKernel, List.range'_succ]
    norm_num
  rw [h2] at h1
  have h3 : 1 < sqrt (2 * π) := by
    rw [lt_sqrt (by norm_num)]
    nlinarith [pi_gt_three]
  have := (div_lt_one (by linarith)).2 h3
  linarith

/-! ## C84 -/

/-- The sum of the weights of the peaks a condition selects. -/
noncomputable def weightOf (p : ℝ → Prop) [DecidablePred p] (peaks : List (ℝ × ℝ)) : ℝ :=
  ((peaks.filter fun q => p q.1).map Prod.snd).sum

theorem sumrules_concat (T : ℝ) (peaks : List (ℝ × ℝ)) (p : ℝ × ℝ) : sumrules T (peaks ++ [p]) = sumStep T (sumrules T peaks) p := by
  simp [sumrules]

theorem weightOf_concat (c : ℝ → Prop) [DecidablePred c] (peaks : List (ℝ × ℝ)) (p : ℝ × ℝ) :
    weightOf c (peaks ++ [p]) = weightOf c peaks + if c p.1 then p.2 else 0 := by
  by_cases h : c p.1 <;> simp [weightOf, List.filter_append, h]

/-- **C84.** The seven numbers printed by `broaden -s`: the first three are the weights at all,
positive and negative frequencies; the integrals with the Fermi kernel and its mirror image add
up to the total weight; those with the Bose kernel to the weight outside zero frequency; and
for non-negative weights the Fermi integrals lie between zero and the total. -/
theorem sumrule_integrals (T : ℝ) (hT : 0 < T) (peaks : List (ℝ × ℝ)) :
    (sumrules T peaks).sum = (peaks.map Prod.snd).sum ∧
    (sumrules T peaks).pos = weightOf (0 < ·) peaks ∧
    (sumrules T peaks).neg = weightOf (· < 0) peaks ∧
    (sumrules T peaks).fermi + (sumrules T peaks).fermiInv = (peaks.map Prod.snd).sum ∧
    (sumrules T peaks).bose + (sumrules T peaks).boseInv = (peaks.map Prod.snd).sum - weightOf (· = 0) peaks ∧
    ((∀ p ∈ peaks, 0 ≤ p.2) → 0 ≤ (sumrules T peaks).fermi ∧ 0 ≤ (sumrules T peaks).fermiInv) := by
  induction peaks using List.reverseRecOn with
  | nil => simp [sumrules, weightOf]
  | append_singleton l p ih =>
    obtain ⟨i1, i2, i3, i4, i5, i6⟩ := ih
    obtain ⟨w, v⟩ := p
    rw [sumrules_concat]
    simp only [sumStep, weightOf_concat, List.map_append, List.map_cons, List.map_nil, List.sum_append, List.sum_cons,
      List.sum_nil, add_zero]
    have hf : 1 / (1 + exp (-w / T)) + 1 / (1 + exp (w / T)) = 1 := by
      rw [neg_div, exp_neg]
      have := exp_pos (w / T)
      field_simp
      ring
    have hf1 : 0 < 1 / (1 + exp (-w / T)) := by positivity
    have hf2 : 0 < 1 / (1 + exp (w / T)) := by positivity
    refine ⟨by rw [i1], ?_, ?_, ?_, ?_, ?_⟩
    · by_cases h : 0 < w <;> simp [h, i2]
    · by_cases h : w < 0 <;> simp [h, i3]
    · linear_combination i4 + v * hf
    · by_cases h : w = 0
      · simp only [h, if_true]
        linear_combination i5
      · simp only [h, if_false]
        have hne : exp (w / T) ≠ 1 := by
          rw [Ne, exp_eq_one_iff]
          exact div_ne_zero h hT.ne'
        have hb : 1 / (1 - exp (-w / T)) + 1 / (1 - exp (w / T)) = 1 := by
          rw [neg_div, exp_neg]
          have hp := exp_pos (w / T)
          have h1 : 1 - exp (w / T) ≠ 0 := sub_ne_zero.2 (Ne.symm hne)
          have h2 : 1 - (exp (w / T))⁻¹ ≠ 0 := by
            intro hc
            apply hne
            have : (exp (w / T))⁻¹ = 1 := by linarith
            exact inv_eq_one.1 this
          have h3 : exp (w / T) - 1 ≠ 0 := sub_ne_zero.2 hne
          have h4 : 1 / (1 - (exp (w / T))⁻¹) = exp (w / T) / (exp (w / T) - 1) := by
            field_simp
          rw [h4, ← neg_sub (exp (w / T)) 1, div_neg, ← sub_eq_add_neg, ← sub_div, div_self h3]
        linear_combination i5 + v * hb
    · intro h
      have hv : 0 ≤ v := h (w, v) (by simp)
      obtain ⟨j1, j2⟩ := i6 fun q hq => h q (by simp [hq])
      exact ⟨add_nonneg j1 (mul_nonneg hf1.le hv), add_nonneg j2 (mul_nonneg hf2.le hv)⟩

example : (0 : ℝ) < 1 ∧ ∀ p ∈ [((0.5 : ℝ), (1 : ℝ)), (0, 2), (-1, 3)], (0 : ℝ) ≤ p.2 := by
  refine ⟨one_pos, ?_⟩
  simp

end Verif.Broad
