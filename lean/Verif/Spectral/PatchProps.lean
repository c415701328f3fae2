import Verif.Spectral.Patch
import Verif.Spectral.BinsProps
import Mathlib.Algebra.BigOperators.Group.Finset.Basic
import Mathlib.Analysis.SpecialFunctions.Trigonometric.DerivHyp
import Mathlib.Algebra.Order.Archimedean.Basic
/-!
# C33–C36: patching windows, output mesh, temperature and Matsubara tables
-/

namespace Verif.Spectral
open Finset

/-! ### The window function -/

theorem tanh_half (a : ℝ) (ha : 0 < a) : Real.tanh (a * (1 - 1 / 2)) - Real.tanh (a * (0 - 1 / 2)) ≠ 0 := by
  have h1 : a * (0 - 1 / 2) = -(a / 2) := by ring
  have h2 : a * (1 - 1 / 2) = a / 2 := by ring
  have h3 : 0 < Real.tanh (a / 2) := by
    rw [Real.tanh_eq_sinh_div_cosh]
    exact div_pos (Real.sinh_pos_iff.mpr (by linarith)) (Real.cosh_pos _)
  rw [h1, h2, Real.tanh_neg]
  linarith

theorem winFnc_zero (a : ℝ) : winFnc a 0 = 0 := by
  unfold winFnc
  split <;> simp

theorem winFnc_one (a : ℝ) : winFnc a 1 = 1 := by
  unfold winFnc
  split
  · rename_i h
    exact div_self (tanh_half a h)
  · rfl

/-- **C33.** The place marked "not reached" is not reached. -/
theorem windowFunction_isSome (a : ℝ) (f l : Bool) (E m x M : ℝ) : (windowFunction a f l E m x M).isSome := by
  unfold windowFunction
  split
  · rfl
  split
  · rfl
  split
  · rfl
  rename_i h3
  push Not at h3
  split
  · rfl
  split
  · rfl
  · rename_i h4 h5
    push Not at h4 h5
    exact absurd (h5 (h4 h3.1)) (not_le.mpr h3.2)

/-- The windows of the merged steps: `x` are the peak energies, decreasing by the
factor `Ef` from one merged step to the next, `d` steps later. -/
structure Geometry (P : PatchP) (d : ℕ) : Prop where
  dpos : 0 < d
  ef : 1 < Efactor P
  pos : ∀ N, 0 < winPeak P N
  ratio : ∀ N, winPeak P N = Efactor P * winPeak P (N + d)
  anti : ∀ N M, N < M → winPeak P M < winPeak P N

theorem Geometry.winMin {P : PatchP} {d : ℕ} (g : Geometry P d) (N : ℕ) : winMin P N = winPeak P (N + d) := by
  have h := g.ratio N
  have he : Efactor P ≠ 0 := by have := g.ef; linarith
  have h2 : winPeak P N = Efactor P * Verif.Spectral.winMin P N := by simp only [winPeak, Verif.Spectral.winMin]; ring
  exact mul_left_cancel₀ he (h2.symm.trans h)

theorem Geometry.winMax {P : PatchP} {d : ℕ} (g : Geometry P d) (N : ℕ) : winMax P (N + d) = winPeak P N := by
  rw [g.ratio N]; simp only [winPeak, Verif.Spectral.winMax]; ring

theorem Geometry.winMax' {P : PatchP} {d : ℕ} (_ : Geometry P d) (N : ℕ) : Verif.Spectral.winMax P N = Efactor P * winPeak P N := by
  simp only [winPeak, Verif.Spectral.winMax]; ring

/-- The window at the top of the rising part is one, on the rising part it is
`fnc`, on the falling part of the next window it is `1 - fnc` of the same argument. -/
theorem window_rise (a : ℝ) (f l : Bool) (E m x M : ℝ) (h1 : m < E) (h2 : E < x) (h3 : x ≤ M) :
    windowFunction a f l E m x M = some (if l then 1 else winFnc a ((E - m) / (x - m))) := by
  unfold windowFunction
  cases l
  · rw [if_neg (by simp), if_neg (by rintro ⟨h, _⟩; linarith), if_neg (by push Not; exact ⟨h1, by linarith⟩),
      if_pos ⟨h1, h2.le⟩]
    rfl
  · rw [if_pos ⟨h2.le, rfl⟩]; rfl

theorem window_fall (a : ℝ) (f l : Bool) (E m x M : ℝ) (h1 : x < E) (h2 : E < M) (h3 : m ≤ x) :
    windowFunction a f l E m x M = some (if f then 1 else 1 - winFnc a ((E - x) / (M - x))) := by
  unfold windowFunction
  rw [if_neg (by rintro ⟨h, _⟩; linarith)]
  cases f
  · rw [if_neg (by simp), if_neg (by push Not; exact ⟨by linarith, h2⟩), if_neg (by push Not; intro _; exact h1),
      if_pos ⟨h1, h2⟩]
    rfl
  · rw [if_pos ⟨h1.le, rfl⟩]; rfl

theorem window_peak (a : ℝ) (f l : Bool) (m x M : ℝ) (h1 : m < x) (h2 : x < M) :
    windowFunction a f l x m x M = some 1 := by
  unfold windowFunction
  split
  · rfl
  split
  · rfl
  rw [if_neg (by push Not; exact ⟨h1, h2⟩), if_pos ⟨h1, le_rfl⟩, div_self (by linarith), winFnc_one]

/-- The value that the factor of a step takes before the averaging factor. -/
noncomputable def win (P : PatchP) (N : ℕ) (E : ℝ) : ℝ :=
  if winMin P N < E ∧ E < winMax P N then
    (windowFunction P.NNtanh (N == P.Ninit) (N == P.Nmax - 1) E (winMin P N) (winPeak P N) (winMax P N)).getD 0
  else 0

theorem patchFactor_win (P : PatchP) (N : ℕ) (E : ℝ) :
    patchFactor P N E = if forMerging P N then (if P.NN2avg then 1 / 2 else 1) * win P N E else 0 := by
  unfold patchFactor win
  split
  · split <;> simp
  · rfl

/-- The sum of the windows of a family of steps spaced by `d` is one everywhere
between the lowest and the highest peak. -/
theorem family_sum (P : PatchP) (d : ℕ) (g : Geometry P d) (S : Finset ℕ) (A B : ℕ) (hA : A ∈ S) (hB : B ∈ S)
    (hin : ∀ N ∈ S, A ≤ N ∧ N ≤ B ∧ P.Ninit ≤ N ∧ N ≤ P.Nmax - 1) (hS : ∀ N ∈ S, N ≠ B → N + d ∈ S)
    (hgap : ∀ N ∈ S, ∀ M ∈ S, N < M → N + d ≤ M) (E : ℝ) (h1 : winPeak P B ≤ E) (h2 : E ≤ winPeak P A) :
    ∑ N ∈ S, win P N E = 1 := by
  classical
  have hmono : ∀ N M, N ≤ M → winPeak P M ≤ winPeak P N := fun N M h => by
    rcases h.lt_or_eq with h | rfl
    · exact (g.anti N M h).le
    · exact le_rfl
  have hminlt : ∀ N, winMin P N < winPeak P N := fun N => by
    rw [g.winMin]; exact g.anti _ _ (by have := g.dpos; omega)
  have hmaxgt : ∀ N, winPeak P N < winMax P N := fun N => by
    rw [g.winMax']; have := g.pos N; have := g.ef; nlinarith
  -- the lowest window whose peak is not below E
  let T := S.filter fun N => E ≤ winPeak P N
  have hT : T.Nonempty := ⟨A, mem_filter.mpr ⟨hA, h2⟩⟩
  obtain ⟨hM1, hM2⟩ := mem_filter.mp (T.max'_mem hT)
  set M := T.max' hT with hMdef
  have hup : ∀ N ∈ S, M < N → winPeak P N < E := by
    intro N hN hlt
    by_contra hcon
    have := T.le_max' N (mem_filter.mpr ⟨hN, not_lt.mp hcon⟩)
    omega
  -- windows before M vanish
  have hbefore : ∀ N ∈ S, N < M → win P N E = 0 := by
    intro N hN hlt
    unfold win
    rw [if_neg]
    rintro ⟨h, _⟩
    rw [g.winMin] at h
    have := hmono (N + d) M (hgap N hN M hM1 hlt)
    linarith
  rcases hM2.lt_or_eq with hM3 | hM3
  · -- strictly between two peaks
    have hMB : M ≠ B := by rintro hMB; rw [hMB] at hM3; linarith
    have hnext := hS M hM1 hMB
    have hnE := hup (M + d) hnext (by have := g.dpos; omega)
    have hafter : ∀ N ∈ S, M + d < N → win P N E = 0 := by
      intro N hN hlt
      unfold win
      rw [if_neg]
      rintro ⟨_, h⟩
      have hge := hgap (M + d) hnext N hN hlt
      obtain ⟨k, rfl⟩ : ∃ k, N = k + d := ⟨N - d, by omega⟩
      rw [g.winMax] at h
      have := hmono (M + d) k (by omega)
      linarith
    have hwM : win P M E = winFnc P.NNtanh ((E - winPeak P (M + d)) / (winPeak P M - winPeak P (M + d))) := by
      unfold win
      rw [g.winMin, if_pos ⟨hnE, lt_trans hM3 (hmaxgt M)⟩,
        window_rise _ _ _ _ _ _ _ hnE hM3 (hmaxgt M).le]
      have hnl : (M == P.Nmax - 1) = false := by
        have h3 := (hin _ hnext).2.2.2
        have := g.dpos
        simp only [beq_eq_false_iff_ne]; omega
      rw [hnl]; rfl
    have hwn : win P (M + d) E = 1 - winFnc P.NNtanh ((E - winPeak P (M + d)) / (winPeak P M - winPeak P (M + d))) := by
      unfold win
      rw [g.winMax, if_pos ⟨lt_trans (hminlt _) hnE, hM3⟩, window_fall _ _ _ _ _ _ _ hnE hM3 (hminlt _).le]
      have hnl : (M + d == P.Ninit) = false := by
        have h3 := (hin _ hM1).2.2.1
        have := g.dpos
        simp only [beq_eq_false_iff_ne]; omega
      rw [hnl]; rfl
    have hsub : ({M, M + d} : Finset ℕ) ⊆ S := by
      intro x hx
      rcases mem_insert.mp hx with rfl | hx
      · exact hM1
      · rw [mem_singleton] at hx; rw [hx]; exact hnext
    rw [← Finset.sum_subset hsub, Finset.sum_pair (by have := g.dpos; omega), hwM, hwn]
    · ring
    · intro x hx hnot
      simp only [mem_insert, mem_singleton, not_or] at hnot
      rcases lt_or_gt_of_ne hnot.1 with h | h
      · exact hbefore x hx h
      · have := hgap M hM1 x hx h
        exact hafter x hx (by omega)
  · -- exactly at a peak
    have hwM : win P M E = 1 := by
      unfold win
      rw [hM3, if_pos ⟨hminlt M, hmaxgt M⟩, window_peak _ _ _ _ _ _ (hminlt M) (hmaxgt M)]
      rfl
    rw [Finset.sum_eq_single_of_mem M hM1, hwM]
    intro x hx hne
    rcases lt_or_gt_of_ne hne with h | h
    · exact hbefore x hx h
    · unfold win
      rw [if_neg]
      rintro ⟨_, h3⟩
      have hge := hgap M hM1 x hx h
      obtain ⟨k, rfl⟩ : ∃ k, x = k + d := ⟨x - d, by omega⟩
      rw [g.winMax, hM3] at h3
      have := hmono M k (by omega)
      linarith

/-! ### The energy scales -/

/-- Admissible parameters. -/
structure GoodPatch (P : PatchP) : Prop where
  lam : 1 < P.Lambda
  goodE : 0 < P.goodE
  pref : 0 < P.pref
  absolute : P.absolute = false
  channels : 0 < P.channels

/-- The energy scale falls by the factor `√Λ` per step. -/
theorem stepScale_ratio (P : PatchP) (hP : GoodPatch P) (hs : P.substeps = true → P.channels = 1) (N : ℕ) :
    stepScale P N = Real.sqrt P.Lambda * stepScale P (N + 1) := by
  have hl : 0 < P.Lambda := by have := hP.lam; linarith
  have e : ∀ N, stepScale P N = SCALE P (N + 1) := fun N => by unfold stepScale; rw [hP.absolute]; simp
  rw [e, e, Real.sqrt_eq_rpow]
  unfold SCALE
  cases h : P.substeps
  · rw [if_pos (by simp), if_pos (by simp), mul_left_comm, ← Real.rpow_add hl]
    congr 2
    push_cast; ring
  · have hc := hs h
    rw [if_neg (by simp), if_neg (by simp), hc, mul_left_comm, ← Real.rpow_add hl]
    congr 2
    push_cast; ring

theorem stepScale_pos (P : PatchP) (hP : GoodPatch P) (N : ℕ) : 0 < stepScale P N := by
  have hl : 0 < P.Lambda := by have := hP.lam; linarith
  have e : stepScale P N = SCALE P (N + 1) := by unfold stepScale; rw [hP.absolute]; simp
  rw [e]
  unfold SCALE
  split <;> exact mul_pos hP.pref (Real.rpow_pos_of_pos hl _)

theorem Efactor_gt (P : PatchP) (hP : GoodPatch P) : 1 < Efactor P := by
  unfold Efactor
  split
  · exact hP.lam
  · rw [← Real.sqrt_one]; exact Real.sqrt_lt_sqrt (by norm_num) hP.lam

theorem winPeak_pos (P : PatchP) (hP : GoodPatch P) (N : ℕ) : 0 < winPeak P N :=
  mul_pos (stepScale_pos P hP N) (mul_pos hP.goodE (by have := Efactor_gt P hP; linarith))

theorem winPeak_ratio (P : PatchP) (hP : GoodPatch P) (hs : P.substeps = true → P.channels = 1) (N : ℕ) :
    winPeak P N = Real.sqrt P.Lambda * winPeak P (N + 1) := by
  unfold winPeak; rw [stepScale_ratio P hP hs N]; ring

theorem winPeak_anti (P : PatchP) (hP : GoodPatch P) (hs : P.substeps = true → P.channels = 1) (N M : ℕ) (h : N < M) :
    winPeak P M < winPeak P N := by
  have step : ∀ N, winPeak P (N + 1) < winPeak P N := fun N => by
    rw [winPeak_ratio P hP hs N]
    have h1 := winPeak_pos P hP (N + 1)
    have h2 : 1 < Real.sqrt P.Lambda := by rw [← Real.sqrt_one]; exact Real.sqrt_lt_sqrt (by norm_num) hP.lam
    nlinarith
  induction M with
  | zero => omega
  | succ M ih =>
    rcases Nat.lt_succ_iff_lt_or_eq.mp h with h | rfl
    · exact lt_trans (step M) (ih h)
    · exact step N

theorem geometry_NN1 (P : PatchP) (hP : GoodPatch P) (hs : P.substeps = true → P.channels = 1)
    (h : P.NN1 = true) : Geometry P 1 where
  dpos := by omega
  ef := Efactor_gt P hP
  pos := winPeak_pos P hP
  ratio := fun N => by
    rw [winPeak_ratio P hP hs N]
    unfold Efactor
    rw [if_neg (by rintro ⟨_, h2⟩; rw [h] at h2; cases h2)]
  anti := winPeak_anti P hP hs

theorem geometry_NN2 (P : PatchP) (hP : GoodPatch P) (hc : P.channels = 1)
    (h : P.NN1 = false) : Geometry P 2 where
  dpos := by omega
  ef := Efactor_gt P hP
  pos := winPeak_pos P hP
  ratio := fun N => by
    rw [winPeak_ratio P hP (fun _ => hc) N, winPeak_ratio P hP (fun _ => hc) (N + 1), ← mul_assoc,
      Real.mul_self_sqrt (by have := hP.lam; linarith)]
    unfold Efactor
    rw [if_pos ⟨hc, h⟩]
  anti := winPeak_anti P hP (fun _ => hc)

/-- All steps of the run. -/
def allSteps (P : PatchP) : Finset ℕ := Finset.Ico P.Ninit P.Nmax

/-- **C33.** N/N+1 patching: at every energy between the peaks of the windows of the
last and the first step, the factors of all steps add up to one, with the linear
and with the smooth window. -/
theorem patch_partition_NN1 (P : PatchP) (hP : GoodPatch P) (hs : P.substeps = true → P.channels = 1)
    (h : P.NN1 = true) (hav : P.NN2avg = false) (hN : P.Ninit < P.Nmax) (E : ℝ) (h1 : winPeak P (P.Nmax - 1) ≤ E)
    (h2 : E ≤ winPeak P P.Ninit) : ∑ N ∈ allSteps P, patchFactor P N E = 1 := by
  rw [← family_sum P 1 (geometry_NN1 P hP hs h) (allSteps P) P.Ninit (P.Nmax - 1)
    (by simp [allSteps]; omega) (by simp [allSteps]; omega) (by intro N hN; simp [allSteps] at hN; omega)
    (by intro N hN hne; simp [allSteps] at hN ⊢; omega) (by intros; omega) E h1 h2]
  refine Finset.sum_congr rfl fun N _ => ?_
  rw [patchFactor_win]
  simp [forMerging, h, hav]

theorem patch_parity (P : PatchP) (hP : GoodPatch P) (hc : P.channels = 1) (h : P.NN1 = false) (r A B : ℕ) (hr : r < 2)
    (hA : P.Ninit ≤ A ∧ A ≤ P.Ninit + 1 ∧ A % 2 = r) (hB : P.Nmax ≤ B + 2 ∧ B < P.Nmax ∧ B % 2 = r) (hAB : A ≤ B)
    (E : ℝ) (h1 : winPeak P B ≤ E) (h2 : E ≤ winPeak P A) :
    ∑ N ∈ allSteps P with N % 2 = r, win P N E = 1 := by
  refine family_sum P 2 (geometry_NN2 P hP hc h) _ A B ?_ ?_ ?_ ?_ ?_ E h1 h2
  · simp [allSteps]; omega
  · simp [allSteps]; omega
  · intro N hN; simp [allSteps] at hN; omega
  · intro N hN hne; simp [allSteps] at hN ⊢; omega
  · intro N hN M hM; simp [allSteps] at hN hM; omega

/-- **C33.** N/N+2 patching with one channel: the factors of the merged steps (even
or odd ones, `A` the first and `B` the last of them) add up to one at every energy
between the peaks of the windows of the last and the first of them. -/
theorem patch_partition_NN2 (P : PatchP) (hP : GoodPatch P) (hc : P.channels = 1) (h : P.NN1 = false)
    (hav : P.NN2avg = false) (A B : ℕ) (hA : P.Ninit ≤ A ∧ A ≤ P.Ninit + 1 ∧ forMerging P A = true)
    (hB : P.Nmax ≤ B + 2 ∧ B < P.Nmax ∧ forMerging P B = true) (hAB : A ≤ B) (E : ℝ) (h1 : winPeak P B ≤ E)
    (h2 : E ≤ winPeak P A) : ∑ N ∈ allSteps P, patchFactor P N E = 1 := by
  have hf : ∃ r, r < 2 ∧ ∀ N, forMerging P N = decide (N % 2 = r) := by
    cases he : P.NN2even
    · exact ⟨1, by omega, fun N => by simp [forMerging, h, hav, he, beq_eq_decide]⟩
    · exact ⟨0, by omega, fun N => by simp [forMerging, h, hav, he, beq_eq_decide]⟩
  obtain ⟨r, hr, hf⟩ := hf
  have hA' := hA.2.2
  have hB' := hB.2.2
  rw [hf, decide_eq_true_eq] at hA' hB'
  rw [← patch_parity P hP hc h r A B hr ⟨hA.1, hA.2.1, hA'⟩ ⟨hB.1, hB.2.1, hB'⟩ hAB E h1 h2, Finset.sum_filter]
  refine Finset.sum_congr rfl fun N _ => ?_
  rw [patchFactor_win, hf]
  by_cases hN : N % 2 = r <;> simp [hN, hav]

/-- **C33.** N/N+2 patching averaged over even and odd steps, one channel: the
factors add up to one between the second lowest and the second highest peak. -/
theorem patch_partition_avg (P : PatchP) (hP : GoodPatch P) (hc : P.channels = 1) (h : P.NN1 = false)
    (hav : P.NN2avg = true) (hN : P.Ninit + 2 ≤ P.Nmax) (E : ℝ) (h1 : winPeak P (P.Nmax - 2) ≤ E)
    (h2 : E ≤ winPeak P (P.Ninit + 1)) : ∑ N ∈ allSteps P, patchFactor P N E = 1 := by
  have mono : ∀ N M, N ≤ M → winPeak P M ≤ winPeak P N := fun N M hle => by
    rcases hle.lt_or_eq with hlt | rfl
    · exact (winPeak_anti P hP (fun _ => hc) N M hlt).le
    · exact le_rfl
  have hmid : ¬ P.Nmax - 2 < P.Ninit + 1 → P.Ninit + 1 ≤ P.Nmax - 2 := by omega
  have fam : ∀ r, r < 2 → ∑ N ∈ allSteps P with N % 2 = r, win P N E = 1 := by
    intro r hr
    have hA : ∃ A, P.Ninit ≤ A ∧ A ≤ P.Ninit + 1 ∧ A % 2 = r := by
      by_cases hp : P.Ninit % 2 = r
      · exact ⟨P.Ninit, by omega, by omega, hp⟩
      · exact ⟨P.Ninit + 1, by omega, by omega, by omega⟩
    have hB : ∃ B, P.Nmax ≤ B + 2 ∧ B < P.Nmax ∧ B % 2 = r := by
      by_cases hp : (P.Nmax - 1) % 2 = r
      · exact ⟨P.Nmax - 1, by omega, by omega, hp⟩
      · exact ⟨P.Nmax - 2, by omega, by omega, by omega⟩
    obtain ⟨A, hA1, hA2, hA3⟩ := hA
    obtain ⟨B, hB1, hB2, hB3⟩ := hB
    exact patch_parity P hP hc h r A B hr ⟨hA1, hA2, hA3⟩ ⟨hB1, hB2, hB3⟩ (by omega) E
      (le_trans (mono _ _ (by omega)) h1) (le_trans h2 (mono _ _ hA2))
  have e : ∀ N ∈ allSteps P, patchFactor P N E
      = 1 / 2 * (if N % 2 = 0 then win P N E else 0) + 1 / 2 * (if N % 2 = 1 then win P N E else 0) := by
    intro N _
    rw [patchFactor_win]
    have : forMerging P N = true := by simp [forMerging, hav]
    rw [this, hav]
    rcases Nat.mod_two_eq_zero_or_one N with h0 | h0 <;> simp [h0]
  rw [Finset.sum_congr rfl e, Finset.sum_add_distrib, ← Finset.mul_sum, ← Finset.mul_sum, ← Finset.sum_filter,
    ← Finset.sum_filter, fam 0 (by omega), fam 1 (by omega)]
  norm_num

/-- **C33, negation.** With several channels and neither N/N+1 patching nor
averaging the windows do not overlap: at the lower end of the window of every merged
step that is not the last, the factors of all steps are zero, so weight is dropped. -/
theorem patch_gap (P : PatchP) (hP : GoodPatch P) (hs : P.substeps = false) (hc : P.channels ≠ 1)
    (h : P.NN1 = false) (hav : P.NN2avg = false) (N : ℕ) (hm : forMerging P N = true) :
    ∑ M ∈ allSteps P, patchFactor P M (winMin P N) = 0 := by
  have hss : P.substeps = true → P.channels = 1 := fun h => by rw [hs] at h; cases h
  have hE : Efactor P = Real.sqrt P.Lambda := by unfold Efactor; rw [if_neg (by rintro ⟨h, _⟩; exact hc h)]
  have hmin : ∀ N, winMin P N = winPeak P (N + 1) := fun N => by
    unfold winMin winPeak; rw [stepScale_ratio P hP hss N, hE]; ring
  have hmax : ∀ N, winMax P (N + 1) = winPeak P N := fun N => by
    unfold winMax winPeak; rw [stepScale_ratio P hP hss N, hE]; ring
  apply Finset.sum_eq_zero
  intro M _
  rw [patchFactor_win]
  split
  · rename_i hm'
    have hw : win P M (winMin P N) = 0 := by
      unfold win
      rw [if_neg]
      rintro ⟨h1, h2⟩
      rw [hmin N] at h1 h2
      rw [hmin M] at h1
      have hlt : N < M := by
        by_contra hge
        have := winPeak_anti P hP hss
        rcases (not_lt.mp hge).lt_or_eq with hl | rfl
        · have := this (M + 1) (N + 1) (by omega); linarith
        · linarith
      have hpar : N + 2 ≤ M := by
        have e1 := hm
        have e2 := hm'
        cases he : P.NN2even <;> simp [forMerging, h, hav, he] at e1 e2 <;> omega
      obtain ⟨k, rfl⟩ : ∃ k, M = k + 1 := ⟨M - 1, by omega⟩
      rw [hmax] at h2
      rcases (show N + 1 ≤ k by omega).lt_or_eq with hl | rfl
      · have := winPeak_anti P hP hss _ _ hl; linarith
      · linarith
    rw [hw]; simp
  · rfl

/-- **C33, negation.** In a calculation with absolute energies all steps use the same
window, so every step with merging contributes at the same energies and none at the
others. -/
theorem patch_absolute (P : PatchP) (h : P.absolute = true) (N M : ℕ) : winMin P N = winMin P M ∧
    winPeak P N = winPeak P M ∧ winMax P N = winMax P M := by
  simp [winMin, winPeak, winMax, stepScale, h]

theorem mergeNN2half_energies (P : PatchP) (N : ℕ) (full cs : Spikes) (h : full.length = cs.length) :
    (mergeNN2half P N full cs).map Prod.fst = full.map Prod.fst := by
  induction full generalizing cs with
  | nil => simp [mergeNN2half]
  | cons f full ih =>
    cases cs with
    | nil => simp at h
    | cons c cs =>
      have := ih cs (by simpa using h)
      simp only [mergeNN2half] at this
      simp [mergeNN2half, this]

/-- **C33.** If every step reports the same spectrum, patching on an empty spectrum
gives back its weight in every bin at which the factors add up to one. -/
theorem patchAll_same (P : PatchP) (hN : P.Ninit ≤ P.Nmax) (cs : Spikes) (i : ℕ) (p : ℝ × ℂ) (hp : cs[i]? = some p)
    (hone : ∑ N ∈ allSteps P, patchFactor P N p.1 = 1) :
    (patchAll P (fun _ => cs) (cs.map fun p => (p.1, 0)))[i]? = some p := by
  have key : ∀ (l : List ℕ) (full : Spikes) (w : ℂ), full.length = cs.length → full[i]? = some (p.1, w) →
      (l.foldl (fun f N => mergeNN2half P N f cs) full)[i]?
        = some (p.1, w + (((l.map fun N => patchFactor P N p.1).sum : ℝ) : ℂ) * p.2) := by
    intro l
    induction l with
    | nil => intro full w _ h; simpa using h
    | cons N l ih =>
      intro full w hl h
      rw [List.foldl_cons, ih (mergeNN2half P N full cs) (w + (patchFactor P N p.1 : ℂ) * p.2)]
      · simp only [List.map_cons, List.sum_cons]; push_cast; congr 2; ring
      · simp [mergeNN2half, hl]
      · simp [mergeNN2half, List.getElem?_zipWith, h, hp]
  have h0 : (cs.map fun p => ((p.1, 0) : ℝ × ℂ))[i]? = some (p.1, 0) := by simp [hp]
  unfold patchAll
  rw [key _ _ _ (by simp) h0]
  have hsum : ((List.range' P.Ninit (P.Nmax - P.Ninit)).map fun N => patchFactor P N p.1).sum = 1 := by
    rw [← hone, allSteps, Finset.sum_eq_multiset_sum]
    simp [Finset.Ico, Multiset.Ico, LocallyFiniteOrder.finsetIco]
  rw [hsum]
  simp

/-- Standard parameters, Λ = 2, twenty steps. -/
noncomputable def exPatch : PatchP := ⟨2, 2, 0, 1, 1, 1, 0, 20, false, false, true, false, false⟩

example : GoodPatch exPatch := ⟨by norm_num [exPatch], by norm_num [exPatch], by norm_num [exPatch], rfl, by decide⟩

/-- At the energy of every even step the theorem applies. -/
example : ∑ N ∈ allSteps exPatch, patchFactor exPatch N (winPeak exPatch 7) = 1 :=
  have hP : GoodPatch exPatch := ⟨by norm_num [exPatch], by norm_num [exPatch], by norm_num [exPatch], rfl, by decide⟩
  patch_partition_NN2 exPatch hP rfl rfl rfl 0 18 (by decide) (by decide) (by decide) _
    (winPeak_anti exPatch hP (fun _ => rfl) 7 18 (by decide)).le (winPeak_anti exPatch hP (fun _ => rfl) 0 7 (by decide)).le

/-! ### The output mesh -/

theorem divLoop_unique {min ratio E : ℝ} {l m : List ℝ} (h1 : DivLoop min ratio E l) (h2 : DivLoop min ratio E m) :
    l = m := by
  induction h1 generalizing m with
  | stop E h => cases h2 with
    | stop => rfl
    | step _ _ h' => exact absurd h' h
  | step E l h _ ih => cases h2 with
    | stop _ h' => exact absurd h h'
    | step _ _ _ h' => rw [ih h']

theorem divLoop_exists {min ratio : ℝ} (hr : 1 < ratio) (hm : 0 < min) (E : ℝ) : ∃ l, DivLoop min ratio E l := by
  obtain ⟨n, hn⟩ := pow_unbounded_of_one_lt (E / min) hr
  replace hn : E < min * ratio ^ n := by rw [div_lt_iff₀ hm] at hn; linarith
  induction n generalizing E with
  | zero => exact ⟨[], .stop E (by simp at hn; linarith)⟩
  | succ n ih =>
    by_cases h : E > min
    · obtain ⟨l, hl⟩ := ih (E / ratio) (by
        rw [div_lt_iff₀ (by linarith), mul_assoc, ← pow_succ]; exact hn)
      exact ⟨_, .step E l h hl⟩
    · exact ⟨[], .stop E h⟩

theorem divLoop_spec {min ratio E : ℝ} {l : List ℝ} (hr : 1 < ratio) (hm : 0 < min) (h : DivLoop min ratio E l) :
    (∀ i x, l[i]? = some x → x = E / ratio ^ i ∧ min < x) ∧ E / ratio ^ l.length ≤ min := by
  induction h with
  | stop E h => simp at h ⊢; exact h
  | step E l h _ ih =>
    obtain ⟨h1, h2⟩ := ih
    constructor
    · intro i x hx
      cases i with
      | zero => simp at hx; subst hx; simpa using h
      | succ i =>
        obtain ⟨h3, h4⟩ := h1 i x (by simpa using hx)
        refine ⟨?_, h4⟩
        rw [h3, pow_succ', div_div]
    · rw [List.length_cons, pow_succ', ← div_div]; exact h2

/-- **C34.** The construction of the output mesh ends for all parameters, with
exactly one outcome: an error unless `ratio > 1` and `0 < min < max`; otherwise the
points are `max / ratio^i`, as many as are above `min`; so they are strictly
decreasing with constant ratio, within `(min, max]`, the first is `max` and the last
is less than a factor `ratio` above `min`. -/
theorem makeMesh_spec (max min ratio : ℝ) :
    (∃ r, MakeMesh max min ratio r) ∧ (∀ r s, MakeMesh max min ratio r → MakeMesh max min ratio s → r = s) ∧
      (MakeMesh max min ratio none ↔ (ratio ≤ 1 ∨ max ≤ 0 ∨ min ≤ 0 ∨ min ≥ max)) ∧
      ∀ l, MakeMesh max min ratio (some l) →
        l ≠ [] ∧ l[0]? = some max ∧
          (∀ i x, l[i]? = some x → x = max / ratio ^ i ∧ min < x ∧ x ≤ max) ∧
          (∀ i x y, l[i]? = some x → l[i + 1]? = some y → y < x ∧ x = ratio * y) ∧
          (∀ x, l.getLast? = some x → x / ratio ≤ min) := by
  refine ⟨?_, ?_, ?_, ?_⟩
  · by_cases h : ratio ≤ 1 ∨ max ≤ 0 ∨ min ≤ 0 ∨ min ≥ max
    · exact ⟨none, .bad h⟩
    · have h' := h
      push Not at h'
      obtain ⟨l, hl⟩ := divLoop_exists h'.1 h'.2.2.1 max
      exact ⟨some l, .ok l h hl⟩
  · intro r s hr hs
    cases hr with
    | bad h => cases hs with
      | bad => rfl
      | ok _ h' => exact absurd h h'
    | ok l h hl => cases hs with
      | bad h' => exact absurd h' h
      | ok m _ hm => rw [divLoop_unique hl hm]
  · exact ⟨fun h => by cases h; assumption, fun h => .bad h⟩
  · intro l h
    cases h with
    | ok _ hc hl =>
      push Not at hc
      obtain ⟨hr, hM, hm, hlt⟩ := hc
      obtain ⟨h1, h2⟩ := divLoop_spec hr hm hl
      have hrp : 0 < ratio := by linarith
      have hne : l ≠ [] := by
        rintro rfl
        simp at h2; linarith
      have hle : ∀ i x, l[i]? = some x → x = max / ratio ^ i ∧ min < x ∧ x ≤ max := by
        intro i x hx
        obtain ⟨h3, h4⟩ := h1 i x hx
        refine ⟨h3, h4, ?_⟩
        rw [h3]
        exact div_le_self hM.le (one_le_pow₀ hr.le)
      refine ⟨hne, ?_, hle, ?_, ?_⟩
      · cases hl with
        | stop _ hs => exact absurd rfl hne
        | step => rfl
      · intro i x y hx hy
        obtain ⟨e1, _, _⟩ := hle i x hx
        obtain ⟨e2, hy2, _⟩ := hle (i + 1) y hy
        have : x = ratio * y := by
          rw [e1, e2, pow_succ]
          field_simp
        refine ⟨?_, this⟩
        rw [this]
        nlinarith
      · intro x hx
        rw [List.getLast?_eq_getElem?] at hx
        obtain ⟨e1, _, _⟩ := hle _ x hx
        rw [e1, div_div, ← pow_succ]
        have : l.length - 1 + 1 = l.length := Nat.sub_add_cancel (List.length_pos_iff.mpr hne)
        rw [this]
        exact h2

example : MakeMesh 8 1 2 (some [8, 4, 2]) := by
  refine .ok _ (by norm_num) ?_
  refine .step _ _ (by norm_num) ?_
  norm_num
  refine .step _ _ (by norm_num) ?_
  norm_num
  refine .step _ _ (by norm_num) ?_
  norm_num
  exact .stop _ (by norm_num)

/-! ### Temperature dependence -/

theorem addValue_total (l : Spikes) (e : ℝ) (w : ℂ) : totalWeight (addValue l e w) = totalWeight l + w := by
  induction l with
  | nil => simp [addValue, totalWeight]
  | cons p l ih =>
    simp only [addValue]
    split
    · simp [totalWeight]; ring
    · simp only [totalWeight, List.map_cons, List.sum_cons] at ih ⊢
      rw [ih]; ring

theorem addValue_keys (l : Spikes) (e : ℝ) (w : ℂ) : (addValue l e w).map Prod.fst
    = if e ∈ l.map Prod.fst then l.map Prod.fst else l.map Prod.fst ++ [e] := by
  induction l with
  | nil => simp [addValue]
  | cons p l ih =>
    simp only [addValue]
    split
    · rename_i h; simp [h]
    · rename_i h
      simp only [List.map_cons, ih, List.mem_cons, Ne.symm h, false_or]
      split <;> simp

/-- The sum of the weights accumulated at a temperature. -/
noncomputable def weightAt (l : Spikes) (e : ℝ) : ℂ := by
  classical exact ((l.filter fun p => decide (p.1 = e)).map Prod.snd).sum

theorem addValue_weightAt (l : Spikes) (e x : ℝ) (w : ℂ) :
    weightAt (addValue l e w) x = weightAt l x + if e = x then w else 0 := by
  induction l with
  | nil => by_cases h : e = x <;> simp [addValue, weightAt, h]
  | cons p l ih =>
    simp only [addValue]
    split
    · rename_i h
      by_cases hx : p.1 = x
      · have : e = x := h ▸ hx
        simp only [weightAt, List.filter_cons, hx, decide_true, if_true, List.map_cons, List.sum_cons, this]
        ring
      · have : e ≠ x := h ▸ hx
        simp [weightAt, hx, this]
    · simp only [weightAt] at ih
      by_cases hx : p.1 = x <;> simp only [weightAt, List.filter_cons, hx, decide_true, decide_false, if_true,
        List.map_cons, List.sum_cons, ih, Bool.false_eq_true, if_false]
      ring

/-- The order of first appearance. -/
noncomputable def firsts : List ℝ → List ℝ → List ℝ
  | seen, [] => seen
  | seen, e :: l => by classical exact firsts (if e ∈ seen then seen else seen ++ [e]) l

/-- **C35.** Accumulating any sequence of values: one entry for each different
temperature, in the order of first appearance; each entry is the sum of the values
given for its temperature; the total is the sum of all values. -/
theorem addValue_spec (vs : List (ℝ × ℂ)) :
    let l := vs.foldl (fun l v => addValue l v.1 v.2) []
    (l.map Prod.fst).Nodup ∧ l.map Prod.fst = firsts [] (vs.map Prod.fst) ∧ (∀ e, e ∈ l.map Prod.fst ↔ e ∈ vs.map Prod.fst) ∧
      (∀ p ∈ l, p.2 = weightAt vs p.1) ∧ totalWeight l = totalWeight vs := by
  classical
  have key : ∀ (vs : List (ℝ × ℂ)) (l : Spikes), (l.map Prod.fst).Nodup →
      let m := vs.foldl (fun l v => addValue l v.1 v.2) l
      (m.map Prod.fst).Nodup ∧ m.map Prod.fst = firsts (l.map Prod.fst) (vs.map Prod.fst) ∧
        (∀ e, e ∈ m.map Prod.fst ↔ e ∈ l.map Prod.fst ∨ e ∈ vs.map Prod.fst) ∧
        (∀ x, weightAt m x = weightAt l x + weightAt vs x) ∧ totalWeight m = totalWeight l + totalWeight vs := by
    intro vs
    induction vs with
    | nil =>
      intro l h
      refine ⟨h, rfl, by simp, ?_, ?_⟩
      · intro x; simp [weightAt]
      · simp [totalWeight]
    | cons v vs ih =>
      intro l h
      have hk := addValue_keys l v.1 v.2
      have hnd : ((addValue l v.1 v.2).map Prod.fst).Nodup := by
        rw [hk]
        split
        · exact h
        · rename_i hn
          rw [List.nodup_append]
          refine ⟨h, by simp, ?_⟩
          intro a ha b hb hab
          simp at hb
          exact hn (hb ▸ hab ▸ ha)
      obtain ⟨h1, h2, h3, h4, h5⟩ := ih (addValue l v.1 v.2) hnd
      refine ⟨h1, ?_, ?_, ?_, ?_⟩
      · simp only [List.foldl_cons] at h2 ⊢
        rw [h2, hk]
        simp only [List.map_cons, firsts]
      · intro e
        simp only [List.foldl_cons] at h3 ⊢
        rw [h3 e, hk]
        simp only [List.map_cons, List.mem_cons]
        split
        · rename_i hin
          constructor
          · tauto
          · rintro (h | rfl | h)
            · exact Or.inl h
            · exact Or.inl hin
            · exact Or.inr h
        · simp only [List.mem_append, List.mem_singleton]; tauto
      · intro x
        simp only [List.foldl_cons] at h4 ⊢
        rw [h4 x, addValue_weightAt]
        by_cases hx : v.1 = x
        · simp only [weightAt, List.filter_cons, hx, decide_true, if_true, List.map_cons, List.sum_cons]; ring
        · simp [weightAt, hx]
      · simp only [List.foldl_cons] at h5 ⊢
        rw [h5, addValue_total]
        simp only [totalWeight, List.map_cons, List.sum_cons]; ring
  obtain ⟨h1, h2, h3, h4, h5⟩ := key vs [] (by simp)
  refine ⟨h1, h2, by simpa using h3, ?_, by simpa [totalWeight] using h5⟩
  intro p hp
  have hw : ∀ (m : Spikes), (m.map Prod.fst).Nodup → ∀ p ∈ m, weightAt m p.1 = p.2 := by
    intro m
    induction m with
    | nil => simp
    | cons q m ih =>
      intro hnd p hp
      simp only [List.map_cons, List.nodup_cons] at hnd
      rcases List.mem_cons.mp hp with rfl | hp
      · have : m.filter (fun x => decide (x.1 = p.1)) = [] := by
          rw [List.filter_eq_nil_iff]
          intro x hx hcon
          simp only [decide_eq_true_eq] at hcon
          exact hnd.1 (hcon ▸ List.mem_map_of_mem hx)
        simp [weightAt, this]
      · have hne : q.1 ≠ p.1 := fun h => hnd.1 (h ▸ List.mem_map_of_mem hp)
        have := ih hnd.2 p hp
        simp only [weightAt] at this
        simp [weightAt, hne, this]
  have h6 := h4 p.1
  rw [hw _ h1 p hp] at h6
  rw [h6]; simp [weightAt]

/-- **C35.** The accumulated totals do not depend on the order of the values. -/
theorem addValue_perm (vs ws : List (ℝ × ℂ)) (h : vs.Perm ws) (e : ℝ) (x y : ℂ)
    (hx : (e, x) ∈ vs.foldl (fun l v => addValue l v.1 v.2) [])
    (hy : (e, y) ∈ ws.foldl (fun l v => addValue l v.1 v.2) []) : x = y := by
  have h1 := (addValue_spec vs).2.2.2.1 _ hx
  have h2 := (addValue_spec ws).2.2.2.1 _ hy
  dsimp only at h1 h2
  rw [h1, h2]
  unfold weightAt
  exact ((h.filter _).map _).sum_eq

example : [((1 : ℝ), (2 : ℂ)), (3, 4), (1, 5)].foldl (fun l v => addValue l v.1 v.2) [] = [(1, 7), (3, 4)] := by
  norm_num [addValue]

/-! ### Imaginary frequencies -/

/-- **C36.** The grid: even multiples of π T for bosons, odd for fermions, strictly
increasing for positive temperature. -/
theorem matsNew_spec (mats : ℕ) (gt : GfType) (T : ℝ) (hT : 0 < T) :
    (matsNew mats gt T).length = mats ∧ totalWeight (matsNew mats gt T) = 0 ∧
      (∀ n p, (matsNew mats gt T)[n]? = some p →
        p.1 = (Real.pi * T) * ((2 * n + match gt with | .bosonic => 0 | .fermionic => 1 : ℕ) : ℝ)) ∧
      ∀ n m, n < m → ww n gt T < ww m gt T := by
  refine ⟨by simp [matsNew], by simp [matsNew, totalWeight, Function.comp_def], ?_, ?_⟩
  · intro n p hp
    simp only [matsNew, List.getElem?_map, Option.map_eq_some_iff] at hp
    obtain ⟨j, hj, rfl⟩ := hp
    obtain ⟨_, he⟩ := List.getElem?_eq_some_iff.mp hj
    simp only [List.getElem_range] at he
    subst he
    cases gt <;> simp only [ww] <;> push_cast <;> ring
  · intro n m h
    have hp : 0 < T * Real.pi := mul_pos hT Real.pi_pos
    have hn : (n : ℝ) < m := by exact_mod_cast h
    cases gt <;> simp only [ww] <;> exact mul_lt_mul_of_pos_left (by linarith) hp

/-- **C36.** The merge of Matsubara accumulators is the same operation as the merge
of bins: it needs equal grids and adds point by point (so `mergeBins_isSome`,
`mergeBins_spec`, `mergeBins_comm` and `mergeBins_assoc` apply to it). -/
theorem matsMerge_eq (v m : Spikes) : matsMerge v m = mergeBins v m := by
  classical
  induction v generalizing m with
  | nil => cases m <;> simp [matsMerge, mergeBins]
  | cons p v ih =>
    cases m with
    | nil => simp [matsMerge, mergeBins]
    | cons q m =>
      simp only [mergeBins, ← ih m]
      unfold matsMerge
      by_cases hl : v.length = m.length
      · rw [if_pos (by simp [hl]), if_pos hl]
        simp only [List.zip_cons_cons, List.mapM_cons]
        by_cases he : p.1 = q.1
        · simp [he, Option.map_eq_bind, Function.comp_def]
        · simp [he]
      · rw [if_neg (by simpa using hl), if_neg hl]
        simp

/-- **C36.** Two accumulators for the same number of frequencies, statistics and
temperature, with any values added, can always be merged; values add up at each
frequency. -/
theorem matsMerge_same_grid (mats : ℕ) (gt : GfType) (T : ℝ) (as bs : List (ℕ × ℂ)) :
    let acc := fun l : List (ℕ × ℂ) => l.foldl (fun v x => addAt v x.1 x.2) (matsNew mats gt T)
    matsMerge (acc as) (acc bs) = some (acc (as ++ bs)) := by
  dsimp only
  rw [matsMerge_eq, mergeBins_comm]
  have key : ∀ (l : List (ℕ × ℂ)) (a b c : Spikes), mergeBins a b = some c →
      mergeBins a (l.foldl (fun v x => addAt v x.1 x.2) b) = some (l.foldl (fun v x => addAt v x.1 x.2) c) := by
    intro l
    induction l with
    | nil => intro a b c h; exact h
    | cons x l ih => intro a b c h; exact ih _ _ _ (merge_of_addAt a b c x.1 x.2 h)
  rw [List.foldl_append, mergeBins_comm]
  apply key
  have := merge_zero (as.foldl (fun v x => addAt v x.1 x.2) (matsNew mats gt T))
  have e : (as.foldl (fun v x => addAt v x.1 x.2) (matsNew mats gt T)).map (fun p => ((p.1, 0) : ℝ × ℂ))
      = matsNew mats gt T := by
    have h1 : ∀ (l : List (ℕ × ℂ)) (v : Spikes),
        (l.foldl (fun v x => addAt v x.1 x.2) v).map Prod.fst = v.map Prod.fst := by
      intro l
      induction l with
      | nil => intro v; rfl
      | cons x l ih => intro v; rw [List.foldl_cons, ih, addAt_energies]
    have h2 := h1 as (matsNew mats gt T)
    have h3 : ∀ v : Spikes, v.map (fun p => ((p.1, 0) : ℝ × ℂ)) = (v.map Prod.fst).map fun e => (e, 0) := by
      intro v; simp
    rw [h3, h2, ← h3]
    simp [matsNew]
  rw [e] at this
  exact this

end Verif.Spectral
