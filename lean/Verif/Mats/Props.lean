import Verif.Mats.Model
import Verif.Broad.ToolProps
import Verif.Spectral.AlgoProps
/-!
# Properties of the Matsubara tool (C87)
-/

namespace Verif.Mats

open Complex

/-- The points of a file: frequency and weight. -/
abbrev Peaks := List (ℝ × ℝ)

theorem omegan_pos {T : ℝ} (hT : 0 < T) (n : ℕ) : 0 < omegan T n := by
  unfold omegan
  have := Real.pi_pos
  positivity

/-- A mesh point is never a pole. -/
theorem denom_ne {w : ℝ} (hw : w ≠ 0) (e : ℝ) : ((w : ℂ) * I - e) ≠ 0 := by
  intro h
  have := congrArg Complex.im h
  simp at this
  exact hw this

theorem term_re (v w e : ℝ) : ((v : ℂ) / ((w : ℂ) * I - e)).re = v * (-e / (e ^ 2 + w ^ 2)) := by
  rw [div_re]
  simp [normSq_apply]
  ring

theorem term_im (v w e : ℝ) : ((v : ℂ) / ((w : ℂ) * I - e)).im = v * (-w / (e ^ 2 + w ^ 2)) := by
  rw [div_im]
  simp [normSq_apply]
  ring

theorem greens_re (s : Peaks) (w : ℝ) : (greens s ((w : ℂ) * I)).re = (s.map fun p => p.2 * (-p.1 / (p.1 ^ 2 + w ^ 2))).sum := by
  unfold greens
  induction s with
  | nil => simp
  | cons p s ih => simp only [List.map_cons, List.sum_cons, add_re, ih, term_re]

theorem greens_im (s : Peaks) (w : ℝ) : (greens s ((w : ℂ) * I)).im = (s.map fun p => p.2 * (-w / (p.1 ^ 2 + w ^ 2))).sum := by
  unfold greens
  induction s with
  | nil => simp
  | cons p s ih => simp only [List.map_cons, List.sum_cons, add_im, ih, term_im]

/-- **C87.** The value for several files is the mean of the values for the single files. -/
theorem mats_merged (files : List Peaks) (w : ℝ) :
    greens (Tools.mergeFiles files) ((w : ℂ) * I) = (files.map fun l => greens l ((w : ℂ) * I)).sum / files.length := by
  have hre : ∀ l : List ℂ, l.sum.re = (l.map Complex.re).sum := fun l => by
    induction l with
    | nil => rfl
    | cons a l ih => simp [ih]
  have him : ∀ l : List ℂ, l.sum.im = (l.map Complex.im).sum := fun l => by
    induction l with
    | nil => rfl
    | cons a l ih => simp [ih]
  apply Complex.ext
  · rw [greens_re, Broad.merge_sum (fun e => -e / (e ^ 2 + w ^ 2)) files, show ((files.length : ℕ) : ℂ) = ((files.length : ℝ) : ℂ) by simp,
      div_ofReal_re, hre, List.map_map]
    simp only [Function.comp_def, greens_re]
  · rw [greens_im, Broad.merge_sum (fun e => -w / (e ^ 2 + w ^ 2)) files, show ((files.length : ℕ) : ℂ) = ((files.length : ℝ) : ℂ) by simp,
      div_ofReal_im, him, List.map_map]
    simp only [Function.comp_def, greens_im]

/-- **C87.** Causality: for non-negative weights the imaginary part is not positive, and negative if some weight is positive; it
is bounded by the total weight over the frequency. -/
theorem mats_causal {s : Peaks} {w : ℝ} (hw : 0 < w) (hs : ∀ p ∈ s, 0 ≤ p.2) :
    (greens s ((w : ℂ) * I)).im ≤ 0 ∧ ((∃ p ∈ s, 0 < p.2) → (greens s ((w : ℂ) * I)).im < 0) ∧
    -((s.map Prod.snd).sum / w) ≤ (greens s ((w : ℂ) * I)).im := by
  rw [greens_im]
  have hw2 : 0 < w ^ 2 := by positivity
  have hd : ∀ e : ℝ, 0 < e ^ 2 + w ^ 2 := fun e => by positivity
  have hterm : ∀ p ∈ s, p.2 * (-w / (p.1 ^ 2 + w ^ 2)) ≤ 0 := fun p hp =>
    mul_nonpos_of_nonneg_of_nonpos (hs p hp) (div_nonpos_of_nonpos_of_nonneg (by linarith) (hd p.1).le)
  refine ⟨?_, ?_, ?_⟩
  · clear hs
    induction s with
    | nil => simp
    | cons p s ih =>
      rw [List.map_cons, List.sum_cons]
      exact add_nonpos (hterm p (by simp)) (ih fun q hq => hterm q (by simp [hq]))
  · rintro ⟨q, hq, hpos⟩
    clear hs
    induction s with
    | nil => simp at hq
    | cons p s ih =>
      rw [List.map_cons, List.sum_cons]
      have hrest : ∀ l : Peaks, (∀ p ∈ l, p.2 * (-w / (p.1 ^ 2 + w ^ 2)) ≤ 0) →
          (l.map fun p => p.2 * (-w / (p.1 ^ 2 + w ^ 2))).sum ≤ 0 := by
        intro l hl
        induction l with
        | nil => simp
        | cons a l ihl =>
          rw [List.map_cons, List.sum_cons]
          exact add_nonpos (hl a (by simp)) (ihl fun b hb => hl b (by simp [hb]))
      rcases List.mem_cons.mp hq with rfl | hq'
      · exact add_neg_of_neg_of_nonpos (mul_neg_of_pos_of_neg hpos (div_neg_of_neg_of_pos (by linarith) (hd _)))
          (hrest s fun b hb => hterm b (by simp [hb]))
      · exact add_neg_of_nonpos_of_neg (hterm p (by simp)) (ih (fun b hb => hterm b (by simp [hb])) hq')
  · clear hterm
    induction s with
    | nil => simp
    | cons p s ih =>
      rw [List.map_cons, List.sum_cons, List.map_cons, List.sum_cons, add_div, neg_add]
      refine add_le_add ?_ (ih fun q hq => hs q (by simp [hq]))
      have h0 := hs p (by simp)
      rw [neg_div, mul_neg, neg_le_neg_iff, div_eq_mul_inv p.2 w]
      refine mul_le_mul_of_nonneg_left ?_ h0
      rw [div_le_iff₀ (hd _), inv_mul_eq_div, le_div_iff₀ hw]
      nlinarith [sq_nonneg p.1]

example : (0 : ℝ) < 1 ∧ ∀ p ∈ [((0.5 : ℝ), (1 : ℝ)), (-2, 0.5)], 0 ≤ p.2 := by
  refine ⟨one_pos, ?_⟩
  simp
  norm_num

/-- **C87.** A particle-hole symmetric spectrum gives a purely imaginary function. -/
theorem mats_symmetric {s : Peaks} (w : ℝ) (hs : (s.map fun p => (-p.1, p.2)).Perm s) : (greens s ((w : ℂ) * I)).re = 0 := by
  have h1 := greens_re s w
  have h2 : (s.map fun p => p.2 * (-p.1 / (p.1 ^ 2 + w ^ 2))).sum =
      ((s.map fun p => (-p.1, p.2)).map fun p : ℝ × ℝ => p.2 * (-p.1 / (p.1 ^ 2 + w ^ 2))).sum := (hs.map _).sum_eq.symm
  rw [List.map_map] at h2
  have h3 : ((s.map ((fun p : ℝ × ℝ => p.2 * (-p.1 / (p.1 ^ 2 + w ^ 2))) ∘ fun p => (-p.1, p.2))).sum) =
      -(s.map fun p => p.2 * (-p.1 / (p.1 ^ 2 + w ^ 2))).sum := by
    rw [List.sum_neg, List.map_map]
    congr 1
    refine List.map_congr_left fun p _ => ?_
    simp only [Function.comp]
    ring
  rw [h3, ← h1] at h2
  linarith

example : ([((0.5 : ℝ), (1 : ℝ)), (-0.5, 1)].map fun p => (-p.1, p.2)).Perm [((0.5 : ℝ), (1 : ℝ)), (-0.5, 1)] := by
  simp only [List.map_cons, List.map_nil, neg_neg]
  exact List.Perm.swap ..

/-- **C87.** The whole program: for files with complete rows it always succeeds, and line `n` holds the fermionic frequency
`(2n+1)πT` and the mean over the files of `Σ v/(iω - e)` over their rows; no mesh point is a pole. -/
theorem mats_output (nrcol col : ℕ) {T : ℝ} (hT : 0 < T) (nrmats : ℕ) (bufs : List (List ℝ))
    (hb : ∀ b ∈ bufs, b.length % (1 + nrcol) = 0) :
    main nrcol col T nrmats bufs = some ((List.range nrmats).map fun n : ℕ =>
      let g := (bufs.map fun b => greens (Tools.points nrcol col b) ((((2 * n + 1) * Real.pi * T : ℝ) : ℂ) * I)).sum / bufs.length
      ((2 * n + 1) * Real.pi * T, g.re, g.im)) ∧
    ∀ (n : ℕ) (e : ℝ), ((((2 * n + 1) * Real.pi * T : ℝ) : ℂ) * I - e) ≠ 0 := by
  have hw : ∀ n : ℕ, (2 * n + 1) * Real.pi * T = omegan T n := fun n => by unfold omegan; ring
  refine ⟨?_, ?_⟩
  · have hl : bufs.mapM (Tools.loadRows nrcol) = some bufs := by
      have := Spectral.mapM_of_forall bufs (Tools.loadRows nrcol) id (fun b h => by
        rw [Tools.loadRows, if_pos (hb b h)]; rfl)
      simpa using this
    rw [main, hl]
    simp only [save, List.length_map, ne_eq, not_true_eq_false, if_false]
    rw [Broad.zip_map_self, Spectral.mapM_of_forall _ _ (fun p : ℂ × ℂ => (p.1.im, p.2.re, p.2.im))]
    · rw [List.map_map, mesh, List.map_map]
      congr 1
      refine List.map_congr_left fun n _ => ?_
      have hi : ((omegan T n : ℂ) * I).im = omegan T n := by simp
      simp only [Function.comp, hw, mats_merged, List.map_map, List.length_map, hi]
      rfl
    · intro p hp
      obtain ⟨x, hx, rfl⟩ := List.mem_map.mp hp
      obtain ⟨n, _, rfl⟩ := List.mem_map.mp hx
      rw [if_pos (by simp)]
  · intro n e
    rw [hw]
    exact denom_ne (omegan_pos hT n).ne' e

example : (0 : ℝ) < 0.1 ∧ ∀ b ∈ [[(1 : ℝ), 2, 3, 4], [1, 1]], b.length % (1 + 1) = 0 := by
  refine ⟨by norm_num, ?_⟩
  simp

end Verif.Mats
