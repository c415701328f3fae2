import Verif.Kk.Model
import Mathlib.Analysis.Calculus.DSlope
import Mathlib.Analysis.SpecialFunctions.Integrals.Basic
import Mathlib.MeasureTheory.Integral.IntervalIntegral.FundThmCalculus
import Mathlib.MeasureTheory.Integral.DominatedConvergence
import Mathlib.Data.List.GetD
/-!
# Properties of the Kramers-Kronig tool and the integrator (C86)
-/

namespace Verif.Kk

open Real MeasureTheory intervalIntegral Filter Topology Set

/-! ## Specification -/

/-- The principal value of `1/π ∫_{-X}^{X} s(x)/(x-Z) dx` is `v`: the limit of the integrals over the
interval without `(Z-ε, Z+ε)`. -/
def IsPrincipalValue (s : ℝ → ℝ) (X Z v : ℝ) : Prop :=
  Tendsto (fun ε => ((∫ x in (-X)..(Z - ε), s x / (x - Z)) + ∫ x in (Z + ε)..X, s x / (x - Z)) / π) (𝓝[>] 0) (𝓝 v)

/-! ## Helper lemmas -/

theorem integrand_eq {s ds : ℝ → ℝ} {Z : ℝ} (hd : HasDerivAt s (ds Z) Z) (X : ℝ) :
    integrand s ds X Z = dslope s Z X + dslope s Z (-X) := by
  have key : ∀ x : ℝ, (if x ≠ Z then (s x - s Z) / (x - Z) else ds x) = dslope s Z x := by
    intro x
    by_cases h : x = Z
    · subst h
      simp [dslope_same, hd.deriv]
    · rw [if_pos h, dslope_of_ne _ h, slope_def_field]
  unfold integrand
  rw [key, key]

theorem integral_even_sum {q : ℝ → ℝ} {X : ℝ} (hX : 0 ≤ X) (hq : ContinuousOn q (Icc (-X) X)) :
    ∫ x in (0)..X, (q x + q (-x)) = ∫ x in (-X)..X, q x := by
  have h1 : IntervalIntegrable q volume 0 X :=
    (hq.mono (Icc_subset_Icc (by linarith) le_rfl)).intervalIntegrable_of_Icc hX
  have h2 : IntervalIntegrable q volume (-X) 0 :=
    (hq.mono (Icc_subset_Icc le_rfl hX)).intervalIntegrable_of_Icc (by linarith)
  have h3 : IntervalIntegrable (fun x => q (-x)) volume 0 X := by
    refine ContinuousOn.intervalIntegrable_of_Icc hX (hq.comp continuousOn_neg fun x hx => ?_)
    exact ⟨neg_le_neg hx.2, by linarith [hx.1]⟩
  rw [integral_add h1 h3, integral_comp_neg (fun x => q x), neg_zero, add_comm, integral_add_adjacent_intervals h2 h1]

theorem atanh_eq {X Z : ℝ} (hX : 0 < X) (h : |Z| < X) : 2 * atanh (Z / X) = log (X + Z) - log (X - Z) := by
  obtain ⟨h1, h2⟩ := abs_lt.mp h
  unfold atanh
  rw [show (1 + Z / X) / (1 - Z / X) = (X + Z) / (X - Z) by
    have : X - Z ≠ 0 := by linarith
    field_simp]
  rw [log_div (by linarith) (by linarith)]
  ring

theorem integral_inv_left {a b Z : ℝ} (ha : a < Z) (hb : b < Z) : ∫ x in a..b, 1 / (x - Z) = log (Z - b) - log (Z - a) := by
  have := integral_comp_sub_right (fun x : ℝ => 1 / x) Z (a := a) (b := b)
  rw [this, integral_one_div_of_neg (by linarith) (by linarith), show (b - Z) / (a - Z) = (Z - b) / (Z - a) by
    rw [← neg_sub Z b, ← neg_sub Z a, neg_div_neg_eq], log_div (by linarith) (by linarith)]

theorem integral_inv_right {a b Z : ℝ} (ha : Z < a) (hb : Z < b) : ∫ x in a..b, 1 / (x - Z) = log (b - Z) - log (a - Z) := by
  have := integral_comp_sub_right (fun x : ℝ => 1 / x) Z (a := a) (b := b)
  rw [this, integral_one_div_of_pos (by linarith) (by linarith), log_div (by linarith) (by linarith)]

/-- On an interval without `Z` the quotient is the regular part plus the singular one. -/
theorem integral_split {s : ℝ → ℝ} {Z a b : ℝ} (hab : a ≤ b) (hs : ContinuousOn s (Icc a b)) (hZ : Z ∉ Icc a b) :
    ∫ x in a..b, s x / (x - Z) = (∫ x in a..b, dslope s Z x) + s Z * ∫ x in a..b, 1 / (x - Z) := by
  have hne : ∀ x ∈ Icc a b, x ≠ Z := fun x hx h => hZ (h ▸ hx)
  have hinv : ContinuousOn (fun x : ℝ => 1 / (x - Z)) (Icc a b) :=
    continuousOn_const.div (continuousOn_id.sub continuousOn_const) fun x hx => sub_ne_zero.mpr (hne x hx)
  have hd : ContinuousOn (dslope s Z) (Icc a b) :=
    fun x hx => (continuousWithinAt_dslope_of_ne (hne x hx)).mpr (hs x hx)
  rw [← intervalIntegral.integral_const_mul, ← integral_add (hd.intervalIntegrable_of_Icc hab)
    ((hinv.intervalIntegrable_of_Icc hab).const_mul _)]
  apply integral_congr
  intro x hx
  rw [uIcc_of_le hab] at hx
  have hx' : x - Z ≠ 0 := sub_ne_zero.mpr (hne x hx)
  simp only [dslope_of_ne _ (hne x hx), slope_def_field]
  field_simp
  ring

/-! ## C86 -/

/-- **C86.** At every frequency inside the interval the program computes the principal value of the
Kramers-Kronig integral over `[-Xmax, Xmax]`, for every interpolating function that is continuous on the
interval and differentiable at the frequency. -/
theorem kk_principal_value {s ds : ℝ → ℝ} {X Z : ℝ} (hs : ContinuousOn s (Icc (-X) X)) (hd : HasDerivAt s (ds Z) Z)
    (hZ : |Z| < X) : IsPrincipalValue s X Z (value s ds X Z) := by
  have hX : 0 < X := (abs_nonneg Z).trans_lt hZ
  obtain ⟨hl, hr⟩ := abs_lt.mp hZ
  have hmem : Icc (-X) X ∈ 𝓝 Z := Icc_mem_nhds hl hr
  set q := dslope s Z with hqdef
  have hq : ContinuousOn q (Icc (-X) X) := (continuousOn_dslope hmem).mpr ⟨hs, hd.differentiableAt⟩
  have hqi : ∀ {a b : ℝ}, a ∈ Icc (-X) X → b ∈ Icc (-X) X → IntervalIntegrable q volume a b := by
    intro a b ha hb
    apply ContinuousOn.intervalIntegrable
    exact hq.mono (uIcc_subset_Icc ha hb)
  have hval : value s ds X Z = ((∫ x in (-X)..X, q x) + s Z * (log (X - Z) - log (X + Z))) / π := by
    unfold value
    rw [if_pos hZ.ne, integral_congr (g := fun x => q x + q (-x)) (fun x _ => integrand_eq hd x),
      integral_even_sum hX.le hq]
    have := atanh_eq hX hZ
    congr 2
    linear_combination -(s Z) * this
  rw [IsPrincipalValue, hval]
  -- the primitive of the regular part is continuous
  have hprim : ContinuousOn (fun t => ∫ x in (-X)..t, q x) (Icc (-X) X) := by
    have := continuousOn_primitive_interval (f := q) (μ := volume) (a := -X) (b := X)
      (by rw [uIcc_of_le (by linarith)]; exact hq.integrableOn_Icc)
    rwa [uIcc_of_le (by linarith)] at this
  have hat : ContinuousAt (fun t => ∫ x in (-X)..t, q x) Z := hprim.continuousAt hmem
  have e1 : Tendsto (fun ε : ℝ => Z - ε) (𝓝[>] 0) (𝓝 Z) := by
    have : Tendsto (fun ε : ℝ => Z - ε) (𝓝 0) (𝓝 (Z - 0)) := (continuous_const.sub continuous_id).tendsto 0
    rw [sub_zero] at this
    exact this.mono_left nhdsWithin_le_nhds
  have e2 : Tendsto (fun ε : ℝ => Z + ε) (𝓝[>] 0) (𝓝 Z) := by
    have : Tendsto (fun ε : ℝ => Z + ε) (𝓝 0) (𝓝 (Z + 0)) := (continuous_const.add continuous_id).tendsto 0
    rw [add_zero] at this
    exact this.mono_left nhdsWithin_le_nhds
  have hlim : Tendsto (fun ε : ℝ => ((∫ x in (-X)..(Z - ε), q x) + ((∫ x in (-X)..X, q x) - ∫ x in (-X)..(Z + ε), q x)
      + s Z * (log (X - Z) - log (X + Z))) / π) (𝓝[>] 0)
      (𝓝 (((∫ x in (-X)..X, q x) + s Z * (log (X - Z) - log (X + Z))) / π)) := by
    have h := (((hat.tendsto.comp e1).add ((tendsto_const_nhds (x := ∫ x in (-X)..X, q x)).sub (hat.tendsto.comp e2))).add_const
      (s Z * (log (X - Z) - log (X + Z)))).div_const π
    simp only [Function.comp_def] at h
    rwa [show (∫ x in (-X)..Z, q x) + ((∫ x in (-X)..X, q x) - ∫ x in (-X)..Z, q x) = ∫ x in (-X)..X, q x by ring] at h
  refine hlim.congr' ?_
  have hsmall : ∀ᶠ ε : ℝ in 𝓝[>] 0, ε ∈ Ioo (0 : ℝ) (min (Z + X) (X - Z)) :=
    Ioo_mem_nhdsGT (lt_min (by linarith) (by linarith))
  filter_upwards [hsmall] with ε hε
  obtain ⟨h0, h1⟩ := hε
  have ha := h1.trans_le (min_le_left _ _)
  have hb := h1.trans_le (min_le_right _ _)
  rw [integral_split (a := -X) (b := Z - ε) (by linarith) (hs.mono (Icc_subset_Icc le_rfl (by linarith)))
      (fun h => by have := h.2; linarith),
    integral_split (a := Z + ε) (b := X) (by linarith) (hs.mono (Icc_subset_Icc (by linarith) le_rfl))
      (fun h => by have := h.1; linarith),
    integral_inv_left (by linarith) (by linarith), integral_inv_right (by linarith) (by linarith)]
  have hadj : (∫ x in (-X)..(Z + ε), q x) + ∫ x in (Z + ε)..X, q x = ∫ x in (-X)..X, q x :=
    integral_add_adjacent_intervals (hqi ⟨le_rfl, by linarith⟩ ⟨by linarith, by linarith⟩)
      (hqi ⟨by linarith, by linarith⟩ ⟨by linarith, le_rfl⟩)
  rw [← hadj, show Z - (Z - ε) = ε by ring, show Z + ε - Z = ε by ring, show Z - -X = X + Z by ring]
  congr 1
  ring

example : ContinuousOn (fun x : ℝ => x ^ 2) (Icc (-1) 1) ∧ HasDerivAt (fun x : ℝ => x ^ 2) (2 * (1 / 2 : ℝ)) (1 / 2)
    ∧ |(1 / 2 : ℝ)| < 1 := by
  refine ⟨by fun_prop, ?_, by rw [abs_of_pos] <;> norm_num⟩
  simpa using hasDerivAt_pow 2 (1 / 2 : ℝ)

/-- **C86.** Even input gives odd output and odd input gives even output. -/
theorem kk_parity {s ds : ℝ → ℝ} (X Z : ℝ) :
    ((∀ x, s (-x) = s x) → (∀ x, ds (-x) = -ds x) → value s ds X (-Z) = -value s ds X Z) ∧
    ((∀ x, s (-x) = -s x) → (∀ x, ds (-x) = ds x) → value s ds X (-Z) = value s ds X Z) := by
  have hat : atanh (-Z / X) = -atanh (Z / X) := by
    unfold atanh
    rw [neg_div, show (1 + -(Z / X)) / (1 - -(Z / X)) = ((1 + Z / X) / (1 - Z / X))⁻¹ by
      rw [inv_div, sub_neg_eq_add, ← sub_eq_add_neg], log_inv]
    ring
  constructor
  · intro he ho
    have hi : ∀ x, integrand s ds x (-Z) = -integrand s ds x Z := by
      intro x
      have h1 : (x ≠ -Z) = (-x ≠ Z) := by rw [ne_eq, ne_eq, neg_eq_iff_eq_neg]
      have h2 : (-x ≠ -Z) = (x ≠ Z) := by rw [ne_eq, ne_eq, neg_inj]
      unfold integrand
      simp only [h1, h2, he, ho]
      split <;> split <;> rw [neg_add, add_comm] <;> congr 1 <;> first | rfl | (rw [neg_neg]) | skip
      all_goals first
        | (rw [← div_neg]; congr 1; ring)
        | rfl
    unfold value
    simp only [hi, intervalIntegral.integral_neg, abs_neg, he, hat]
    split <;> ring
  · intro ho he
    have hi : ∀ x, integrand s ds x (-Z) = integrand s ds x Z := by
      intro x
      have h1 : (x ≠ -Z) = (-x ≠ Z) := by rw [ne_eq, ne_eq, neg_eq_iff_eq_neg]
      have h2 : (-x ≠ -Z) = (x ≠ Z) := by rw [ne_eq, ne_eq, neg_inj]
      unfold integrand
      simp only [h1, h2, ho, he]
      split <;> split <;> rw [add_comm] <;> congr 1 <;> first | rfl | skip
      all_goals first
        | (rw [← neg_div_neg_eq]; congr 1 <;> ring)
        | rfl
    unfold value
    simp only [hi, abs_neg, ho, hat]
    split <;> ring

example : (∀ x : ℝ, (-x) ^ 2 = x ^ 2) ∧ ∀ x : ℝ, 2 * -x = -(2 * x) := ⟨fun x => by ring, fun x => by ring⟩

/-- **C86, the end points.** At `Z = ±Xmax`, where the principal value does not exist unless the function vanishes,
the program gives the regular part; for a function that vanishes there this is the ordinary integral. -/
theorem kk_edge {s ds : ℝ → ℝ} {X Z : ℝ} (hX : 0 < X) (hs : ContinuousOn s (Icc (-X) X)) (hd : HasDerivAt s (ds Z) Z)
    (hZ : |Z| = X) : value s ds X Z = (∫ x in (-X)..X, (s x - s Z) / (x - Z)) / π := by
  have hq : ContinuousOn (dslope s Z) (Icc (-X) X) := by
    intro x hx
    by_cases h : x = Z
    · rw [h]
      exact (continuousAt_dslope_same.mpr hd.differentiableAt).continuousWithinAt
    · exact (continuousWithinAt_dslope_of_ne h).mpr (hs x hx)
  unfold value
  rw [if_neg (by rw [hZ]; simp), integral_congr (g := fun x => dslope s Z x + dslope s Z (-x)) (fun x _ => integrand_eq hd x),
    integral_even_sum hX.le hq, add_zero]
  congr 1
  apply intervalIntegral.integral_congr_ae
  have : ∀ᵐ x : ℝ ∂volume, x ≠ Z := by simp [ae_iff]
  filter_upwards [this] with x hx _
  rw [dslope_of_ne _ hx, slope_def_field]

example : (0 : ℝ) < 1 ∧ |(-1 : ℝ)| = 1 := by norm_num

theorem fcmp_bound {a b eps : ℝ} (he : 0 ≤ eps) (h : fcmpZero a b eps) (hne : a ≠ 0 ∨ b ≠ 0) :
    |a - b| ≤ 2 * eps * max |a| |b| := by
  unfold fcmpZero at h
  set m := if |a| > |b| then a else b with hm
  have hmax : |m| = max |a| |b| := by
    rw [hm]
    split
    · rename_i h'
      rw [max_eq_left h'.le]
    · rename_i h'
      rw [max_eq_right (not_lt.mp h')]
  have hpos : 0 < |m| := by
    rw [hmax]
    rcases hne with h' | h'
    · exact lt_max_of_lt_left (abs_pos.mpr h')
    · exact lt_max_of_lt_right (abs_pos.mpr h')
  have h2 : (2 : ℝ) ^ frexpExp m ≤ 2 * |m| := by
    unfold frexpExp
    rw [if_neg (abs_pos.mp hpos), zpow_add_one₀ two_ne_zero, mul_comm]
    exact mul_le_mul_of_nonneg_left (by exact_mod_cast Int.zpow_log_le_self (b := 2) (by norm_num) hpos) (by norm_num)
  rw [← hmax]
  calc |a - b| ≤ eps * (2 : ℝ) ^ frexpExp m := h
    _ ≤ eps * (2 * |m|) := mul_le_mul_of_nonneg_left h2 he
    _ = 2 * eps * |m| := by ring

/-- **C86.** An accepted table is symmetric within the tolerance, strictly increasing in the frequency, contains
at least six points, the points of its lower half are negative and those of its upper half positive (as
the comment in the code says). -/
theorem kk_init {im l : Table} (h : init im = .ok l) :
    l.Perm im ∧ 6 ≤ l.length ∧ l.length % 2 = 0 ∧ (l.map Prod.fst).Pairwise (· < ·) ∧
    (∀ i, l.length / 2 ≤ i → i < l.length →
      fcmpZero ((l.map Prod.fst).getD (l.length - i - 1) 0) (-((l.map Prod.fst).getD i 0)) 1e-8) ∧
    (∀ x ∈ xpos l, 0 < x) ∧ (∀ x ∈ (l.map Prod.fst).take (l.length / 2), x < 0) := by
  unfold init at h
  split at h
  · cases h
  dsimp only at h
  split at h
  · cases h
  rename_i _ hev
  split at h
  · cases h
  split at h
  · cases h
  rename_i _ hsp
  split at h
  · cases h
  rename_i _ hsym
  rw [Except.ok.injEq] at h
  rw [h] at hev hsp hsym
  rw [not_not] at hev hsp hsym
  obtain ⟨h5, hinc⟩ := hsp
  rw [List.length_map] at h5 hsym
  have h6 : 6 ≤ l.length := by omega
  have hmid := hsym (l.length / 2) le_rfl (by omega)
  rw [show l.length - l.length / 2 - 1 = l.length / 2 - 1 by omega] at hmid
  set x := l.map Prod.fst with hx
  have hlen : x.length = l.length := List.length_map ..
  have hlt : x.getD (l.length / 2 - 1) 0 < x.getD (l.length / 2) 0 := by
    rw [List.getD_eq_getElem _ _ (by omega), List.getD_eq_getElem _ _ (by omega)]
    exact List.pairwise_iff_getElem.mp hinc _ _ _ _ (by omega)
  have hab : x.getD (l.length / 2 - 1) 0 < 0 ∧ 0 < x.getD (l.length / 2) 0 := by
    generalize x.getD (l.length / 2 - 1) 0 = a at hlt hmid
    generalize x.getD (l.length / 2) 0 = b at hlt hmid
    have hb := fcmp_bound (by norm_num) hmid (by
      by_contra hc
      rw [not_or, not_not, not_not, neg_eq_zero] at hc
      rw [hc.1, hc.2] at hlt
      exact lt_irrefl _ hlt)
    rw [sub_neg_eq_add, abs_neg] at hb
    constructor
    · by_contra hc
      rw [not_lt] at hc
      rw [abs_of_nonneg hc, abs_of_pos (hc.trans_lt hlt), abs_of_pos (by linarith), max_eq_right hlt.le] at hb
      norm_num at hb
      linarith
    · by_contra hc
      rw [not_lt] at hc
      rw [abs_of_nonpos hc, abs_of_neg (hlt.trans_le hc), abs_of_neg (by linarith), max_eq_left (by linarith)] at hb
      norm_num at hb
      linarith
  refine ⟨by classical exact h ▸ List.perm_insertionSort _ _, h6, hev, hinc, hsym, ?_, ?_⟩
  · intro y hy
    unfold xpos at hy
    rw [← hx] at hy
    obtain ⟨i, hi, rfl⟩ := List.mem_iff_getElem.mp hy
    rw [List.length_drop] at hi
    rw [List.getElem_drop]
    refine hab.2.trans_le ?_
    rw [List.getD_eq_getElem _ _ (by omega)]
    rcases Nat.eq_zero_or_pos i with h0 | h0
    · subst h0
      simp
    · exact (List.pairwise_iff_getElem.mp hinc _ _ _ _ (by omega)).le
  · intro y hy
    obtain ⟨i, hi, rfl⟩ := List.mem_iff_getElem.mp hy
    rw [List.length_take] at hi
    rw [List.getElem_take]
    refine lt_of_le_of_lt ?_ hab.1
    rw [List.getD_eq_getElem _ _ (by omega)]
    rcases Nat.lt_or_ge i (l.length / 2 - 1) with h0 | h0
    · exact (List.pairwise_iff_getElem.mp hinc _ _ _ _ h0).le
    · have : i = l.length / 2 - 1 := by omega
      subst this
      exact le_rfl

/-- **C86.** Every table with an even number of at least six points, on an exactly symmetric grid of different
frequencies, is accepted; points may come in any order. -/
theorem kk_accepts {im : Table} (h6 : 6 ≤ im.length) (hev : im.length % 2 = 0)
    (hsym : ∀ p ∈ im, ∃ p' ∈ im, p'.1 = -p.1) (hdist : (im.map Prod.fst).Nodup) :
    ∃ l, init im = .ok l := by
  classical
  haveI : Std.Total pairLE := ⟨fun a b => by
    unfold pairLE
    rcases lt_trichotomy a.1 b.1 with h | h | h
    · exact Or.inl (Or.inl h)
    · rcases le_total a.2 b.2 with h' | h'
      · exact Or.inl (Or.inr ⟨h, h'⟩)
      · exact Or.inr (Or.inr ⟨h.symm, h'⟩)
    · exact Or.inr (Or.inl h)⟩
  haveI : IsTrans (ℝ × ℝ) pairLE := ⟨fun a b c h1 h2 => by
    unfold pairLE at *
    rcases h1 with h1 | ⟨h1, h1'⟩ <;> rcases h2 with h2 | ⟨h2, h2'⟩
    · exact Or.inl (h1.trans h2)
    · exact Or.inl (h2 ▸ h1)
    · exact Or.inl (h1 ▸ h2)
    · exact Or.inr ⟨h1.trans h2, h1'.trans h2'⟩⟩
  set l := im.insertionSort pairLE with hl
  have hperm : l.Perm im := List.perm_insertionSort _ _
  set x := l.map Prod.fst with hx
  have hxp : x.Perm (im.map Prod.fst) := hperm.map _
  have hnd : x.Nodup := hxp.nodup_iff.mpr hdist
  have hlen : x.length = im.length := by rw [hxp.length_eq, List.length_map]
  have hinc : x.Pairwise (· < ·) := by
    have hle : x.Pairwise (· ≤ ·) := by
      rw [hx, List.pairwise_map]
      refine (List.pairwise_insertionSort pairLE im).imp ?_
      intro a b h
      rcases h with h | h
      · exact h.le
      · exact h.1.le
    exact (hle.and hnd).imp fun h => lt_of_le_of_ne h.1 h.2
  have hneg : x = (x.map Neg.neg).reverse := by
    have hsub : x.map Neg.neg ⊆ x := by
      intro y hy
      obtain ⟨z, hz, rfl⟩ := List.mem_map.mp hy
      obtain ⟨p, hp, rfl⟩ := List.mem_map.mp (hxp.mem_iff.mp hz)
      obtain ⟨p', hp', e⟩ := hsym p hp
      exact hxp.mem_iff.mpr (List.mem_map.mpr ⟨p', hp', e⟩)
    have hp : (x.map Neg.neg).Perm x :=
      (List.subperm_of_subset (hnd.map neg_injective) hsub).perm_of_length_le (by simp)
    refine List.Perm.eq_of_pairwise (le := (· < ·)) (fun a b _ _ h1 h2 => absurd (h1.trans h2) (lt_irrefl _)) hinc ?_
      (hp.symm.trans (List.reverse_perm _).symm)
    rw [List.pairwise_reverse, List.pairwise_map]
    exact hinc.imp fun h => neg_lt_neg h
  have hget : ∀ i, i < x.length → x.getD (x.length - i - 1) 0 = -(x.getD i 0) := by
    intro i hi
    have he : x.getD (x.length - i - 1) 0 = (x.map Neg.neg).reverse.getD (x.length - i - 1) 0 := by rw [← hneg]
    have hL : (x.map Neg.neg).length = x.length := List.length_map (f := Neg.neg) ..
    rw [he, List.getD_eq_getElem _ _ (by rw [List.length_reverse, hL]; omega), List.getElem_reverse,
      List.getElem_map, List.getD_eq_getElem _ _ hi]
    congr 2
    omega
  have hf : ∀ a : ℝ, fcmpZero a a 1e-8 := by
    intro a
    unfold fcmpZero
    rw [sub_self, abs_zero]
    positivity
  refine ⟨l, ?_⟩
  unfold init
  rw [if_neg (by rintro rfl; simp at h6)]
  dsimp only
  rw [if_neg, if_neg, if_neg, if_neg]
  · rw [not_not]
    intro i _ hi
    change fcmpZero (x.getD (x.length - i - 1) 0) (-(x.getD i 0)) 1e-8
    rw [hget i hi]
    exact hf _
  · rw [not_not]
    exact ⟨by rw [hlen]; omega, hinc⟩
  · rw [not_not]
    have := hget 0 (by omega)
    change fcmpZero (-(x.getD 0 0)) (x.getD (x.length - 1) 0) 1e-8
    rw [Nat.sub_zero] at this
    rw [this]
    exact hf _
  · rw [not_not, hperm.length_eq]
    exact hev

example : 6 ≤ ([(-1, 2), (1, 0), (-2, 5), (2, 1), (3, 0), (-3, 1)] : Table).length ∧
    (∀ p ∈ ([(-1, 2), (1, 0), (-2, 5), (2, 1), (3, 0), (-3, 1)] : Table),
      ∃ p' ∈ ([(-1, 2), (1, 0), (-2, 5), (2, 1), (3, 0), (-3, 1)] : Table), p'.1 = -p.1) ∧
    (([(-1, 2), (1, 0), (-2, 5), (2, 1), (3, 0), (-3, 1)] : Table).map Prod.fst).Nodup := by
  refine ⟨by simp, ?_, by norm_num⟩
  simp

/-- **C86.** The result has the frequencies of the input, in increasing order. -/
theorem kk_program {interp : Table → (ℝ → ℝ) × (ℝ → ℝ)} {im re : Table} (h : program interp im = .ok re) :
    (re.map Prod.fst).Perm (im.map Prod.fst) ∧ (re.map Prod.fst).Pairwise (· < ·) := by
  unfold program at h
  cases hi : init im with
  | error e => rw [hi] at h; cases h
  | ok l =>
    rw [hi] at h
    simp only [Except.ok.injEq] at h
    have hk := kk_init hi
    have : re.map Prod.fst = l.map Prod.fst := by
      rw [← h]
      unfold valueGrid
      rw [List.map_map]
      exact List.map_id _
    rw [this]
    exact ⟨hk.1.map _, hk.2.2.2.1⟩

/-- **C86.** The value printed at a frequency inside the range is the principal value at this frequency, of the interpolation through the input
sorted by frequency, over the range up to the highest frequency. -/
theorem kk_output {interp : Table → (ℝ → ℝ) × (ℝ → ℝ)} {im re : Table} (h : program interp im = .ok re) :
    ∃ l, l.Perm im ∧ (l.map Prod.fst).Pairwise (· < ·) ∧ ∃ X ∈ im.map Prod.fst, (∀ x ∈ im.map Prod.fst, x ≤ X) ∧
      ∀ p ∈ re, |p.1| < X → ContinuousOn (interp l).1 (Icc (-X) X) → HasDerivAt (interp l).1 ((interp l).2 p.1) p.1 →
        IsPrincipalValue (interp l).1 X p.1 p.2 := by
  unfold program at h
  cases hi : init im with
  | error e => rw [hi] at h; cases h
  | ok l =>
    rw [hi] at h
    simp only [Except.ok.injEq] at h
    have hk := kk_init hi
    have hlen : 6 ≤ (l.map Prod.fst).length := by rw [List.length_map]; exact hk.2.1
    have hperm := hk.1.map Prod.fst
    have hlast : (l.map Prod.fst).length - 1 < (l.map Prod.fst).length := by omega
    refine ⟨l, hk.1, hk.2.2.2.1, (l.map Prod.fst)[(l.map Prod.fst).length - 1], ?_, ?_, ?_⟩
    · exact hperm.subset (List.getElem_mem hlast)
    · intro x hx
      obtain ⟨i, hi, e⟩ := List.getElem_of_mem (hperm.symm.subset hx)
      rw [← e]
      rcases Nat.lt_or_ge i ((l.map Prod.fst).length - 1) with hlt | hge
      · exact (List.pairwise_iff_getElem.mp hk.2.2.2.1 _ _ hi hlast hlt).le
      · have : i = (l.map Prod.fst).length - 1 := by omega
        subst this
        exact le_rfl
    · intro p hp hX hc hd
      rw [← h] at hp
      unfold valueGrid at hp
      obtain ⟨x, -, e⟩ := List.mem_map.mp hp
      rw [← e] at hX hd ⊢
      dsimp only at hX hd ⊢
      rw [List.getD_eq_getElem _ _ hlast]
      exact kk_principal_value hc hd hX

/-- **C86, violated.** Contrary to the comment on the modes, the output on standard output does not consist of the result
only: it always ends with a message. -/
theorem kk_std_not_only_result (re : Table) : Line.message "KK done!" ∈ stdout .std re :=
  List.mem_append_right _ (List.mem_singleton.mpr rfl)

/-! ## The integrator -/

/-- **C86.** The five numbers of the integrator for a function continuous on the interval: the integrals over positive
and negative arguments add up to the total, they are the integrals over the two half intervals, the total is bounded by the integral
of the magnitude. -/
theorem integ_parts {s : ℝ → ℝ} {a b : ℝ} (T : ℝ) (ha : a ≤ 0) (hb : 0 ≤ b) (hs : ContinuousOn s (Icc a b)) :
    (integrals s T a b).pos = (∫ x in (0)..b, s x) ∧ (integrals s T a b).neg = (∫ x in a..0, s x) ∧
    (integrals s T a b).pos + (integrals s T a b).neg = (integrals s T a b).total ∧
    |(integrals s T a b).total| ≤ (integrals s T a b).abs := by
  have h1 : IntervalIntegrable s volume 0 b := (hs.mono (Icc_subset_Icc ha le_rfl)).intervalIntegrable_of_Icc hb
  have h2 : IntervalIntegrable s volume a 0 := (hs.mono (Icc_subset_Icc le_rfl hb)).intervalIntegrable_of_Icc ha
  have hae : ∀ᵐ x : ℝ ∂volume, x ≠ 0 := by simp [ae_iff]
  have p1 : ∀ᵐ x ∂volume, x ∈ Set.uIoc (0 : ℝ) b → s x = fPos s x := by
    refine Eventually.of_forall fun x hx => ?_
    rw [uIoc_of_le hb] at hx
    rw [fPos, if_pos hx.1]
  have p2 : ∀ᵐ x ∂volume, x ∈ Set.uIoc a (0 : ℝ) → (0 : ℝ) = fPos s x := by
    refine Eventually.of_forall fun x hx => ?_
    rw [uIoc_of_le ha] at hx
    rw [fPos, if_neg (not_lt.mpr hx.2)]
  have n1 : ∀ᵐ x ∂volume, x ∈ Set.uIoc (0 : ℝ) b → (0 : ℝ) = fNeg s x := by
    refine Eventually.of_forall fun x hx => ?_
    rw [uIoc_of_le hb] at hx
    rw [fNeg, if_neg (not_lt.mpr hx.1.le)]
  have n2 : ∀ᵐ x ∂volume, x ∈ Set.uIoc a (0 : ℝ) → s x = fNeg s x := by
    filter_upwards [hae] with x hx0 hx
    rw [uIoc_of_le ha] at hx
    rw [fNeg, if_pos (lt_of_le_of_ne hx.2 hx0)]
  have ip1 : IntervalIntegrable (fPos s) volume 0 b := h1.congr_ae ((ae_restrict_iff' measurableSet_uIoc).mpr p1)
  have ip2 : IntervalIntegrable (fPos s) volume a 0 :=
    (intervalIntegrable_const (c := (0 : ℝ))).congr_ae ((ae_restrict_iff' measurableSet_uIoc).mpr p2)
  have in1 : IntervalIntegrable (fNeg s) volume 0 b :=
    (intervalIntegrable_const (c := (0 : ℝ))).congr_ae ((ae_restrict_iff' measurableSet_uIoc).mpr n1)
  have in2 : IntervalIntegrable (fNeg s) volume a 0 := h2.congr_ae ((ae_restrict_iff' measurableSet_uIoc).mpr n2)
  have hp : (integrals s T a b).pos = ∫ x in (0)..b, s x := by
    change ∫ x in a..b, fPos s x = _
    rw [← integral_add_adjacent_intervals ip2 ip1, ← intervalIntegral.integral_congr_ae p1,
      ← intervalIntegral.integral_congr_ae p2, intervalIntegral.integral_zero, zero_add]
  have hn : (integrals s T a b).neg = ∫ x in a..0, s x := by
    change ∫ x in a..b, fNeg s x = _
    rw [← integral_add_adjacent_intervals in2 in1, ← intervalIntegral.integral_congr_ae n1,
      ← intervalIntegral.integral_congr_ae n2, intervalIntegral.integral_zero, add_zero]
  refine ⟨hp, hn, ?_, ?_⟩
  · rw [hp, hn, add_comm]
    exact integral_add_adjacent_intervals h2 h1
  · exact intervalIntegral.abs_integral_le_integral_abs (ha.trans hb)

example : (-1 : ℝ) ≤ 0 ∧ (0 : ℝ) ≤ 1 ∧ ContinuousOn (fun x : ℝ => x ^ 3 + 1) (Icc (-1) 1) :=
  ⟨by norm_num, by norm_num, by fun_prop⟩

/-- **C86.** With the Fermi factor, a non-negative function gives a number between zero and the total, and the
weights at `T` of a function and of its mirror image add up to the total. -/
theorem integ_fermi {s : ℝ → ℝ} {a b T : ℝ} (hab : a ≤ b) (hs : ContinuousOn s (Icc a b)) :
    ((∀ x ∈ Icc a b, 0 ≤ s x) → 0 ≤ (integrals s T a b).fermi ∧ (integrals s T a b).fermi ≤ (integrals s T a b).total) ∧
    (integrals s T a b).fermi + (integrals (fun x => s (-x)) T (-b) (-a)).fermi = (integrals s T a b).total := by
  have hpos : ∀ x : ℝ, 0 < 1 + exp (x / T) := fun x => by positivity
  have hc : Continuous fun x : ℝ => 1 / (1 + exp (x / T)) :=
    continuous_const.div (by fun_prop) fun x => (hpos x).ne'
  have hf : ContinuousOn (fFermi s T) (Icc a b) := hs.mul hc.continuousOn
  have hf' : ContinuousOn (fun x => s x * (1 / (1 + exp (-x / T)))) (Icc a b) :=
    hs.mul (hc.comp continuous_neg).continuousOn
  constructor
  · intro h0
    constructor
    · exact intervalIntegral.integral_nonneg hab fun x hx => mul_nonneg (h0 x hx) (by have := hpos x; positivity)
    · refine intervalIntegral.integral_mono_on hab (hf.intervalIntegrable_of_Icc hab) (hs.intervalIntegrable_of_Icc hab) fun x hx => ?_
      refine mul_le_of_le_one_right (h0 x hx) ?_
      rw [div_le_one (hpos x)]
      linarith [exp_pos (x / T)]
  · change (∫ x in a..b, fFermi s T x) + (∫ x in (-b)..(-a), fFermi (fun x => s (-x)) T x) = ∫ x in a..b, s x
    have := integral_comp_neg (fun x => s x * (1 / (1 + exp (-x / T)))) (a := -b) (b := -a)
    simp only [neg_neg] at this
    change _ + (∫ x in (-b)..(-a), s (-x) * (1 / (1 + exp (x / T)))) = _
    rw [this, ← integral_add (hf.intervalIntegrable_of_Icc hab) (hf'.intervalIntegrable_of_Icc hab)]
    apply integral_congr
    intro x _
    simp only [fFermi]
    rw [neg_div, exp_neg]
    have h1 := exp_pos (x / T)
    field_simp
    ring

example : (-1 : ℝ) ≤ 1 ∧ ContinuousOn (fun x : ℝ => x ^ 2) (Icc (-1) 1) ∧ ∀ x ∈ Icc (-1 : ℝ) 1, 0 ≤ x ^ 2 :=
  ⟨by norm_num, by fun_prop, fun x _ => sq_nonneg x⟩

end Verif.Kk
