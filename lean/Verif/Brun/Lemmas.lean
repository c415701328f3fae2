import Verif.Brun.Spec
import Verif.Zrun.Props
import Verif.Broad.ToolProps
/-!
# Lemmas on the program `broaden`
-/

namespace Verif.Brun
open Verif.Text
open Verif.Zrun (Files Bin Stored sumRows freq weight)
open Verif.Cmd (Line given argOf colsOf brOf int num)

open Classical in
theorem filter_spec (set : Cmd.BrSet) (s : List (ℝ × ℝ)) : filter set s = s.map fun p => (p.1, if Kept set p.1 then p.2 else 0) := by
  unfold filter
  rw [List.map_map]
  refine List.map_congr_left fun p _ => ?_
  simp only [Function.comp, Kept]
  refine Prod.ext rfl ?_
  dsimp only
  by_cases h1 : |p.1| < (set.low : ℝ)
  · have : ¬ (set.low : ℝ) ≤ |p.1| := not_le.mpr h1
    simp only [h1, this, if_true, false_and, if_false]
    cases set.high <;> simp
  · have h1' : (set.low : ℝ) ≤ |p.1| := not_lt.mp h1
    simp only [h1, h1', if_false, true_and]
    have hs : (set.keeppos = false ∧ 0 ≤ p.1) ∨ (set.keepneg = false ∧ p.1 < 0) ↔ ¬ ((0 ≤ p.1 → set.keeppos = true) ∧ (p.1 < 0 → set.keepneg = true)) := by
      rcases lt_or_ge p.1 0 with h | h
      · have : ¬ 0 ≤ p.1 := not_le.mpr h
        simp [h, this]
      · have : ¬ p.1 < 0 := not_lt.mpr h
        simp [h, this]
    cases hh : set.high with
    | none =>
      simp only [reduceCtorEq, false_implies, implies_true, true_and]
      by_cases hb : (0 ≤ p.1 → set.keeppos = true) ∧ (p.1 < 0 → set.keepneg = true)
      · rw [if_pos hb]
        have := mt hs.1 (not_not.2 hb)
        rw [not_or] at this
        rw [if_neg this.2, if_neg this.1]
      · rw [if_neg hb]
        rcases hs.2 hb with h | h
        · rw [if_pos h]; simp
        · rw [if_pos h]
    | some b =>
      simp only [Option.some.injEq, forall_eq']
      by_cases h2 : (b : ℝ) < |p.1|
      · have : ¬ |p.1| ≤ (b : ℝ) := not_le.mpr h2
        simp [h2, this]
      · have h2' : |p.1| ≤ (b : ℝ) := not_lt.mp h2
        simp only [h2, h2', if_false, true_and]
        by_cases hb : (0 ≤ p.1 → set.keeppos = true) ∧ (p.1 < 0 → set.keepneg = true)
        · rw [if_pos hb]
          have := mt hs.1 (not_not.2 hb)
          rw [not_or] at this
          rw [if_neg this.2, if_neg this.1]
        · rw [if_neg hb]
          rcases hs.2 hb with h | h
          · rw [if_pos h]; simp
          · rw [if_pos h]

/-! ## The loop of the mesh -/

theorem down_mono {min ratio : ℝ} (n k : Nat) (z : ℝ) (r : List ℝ) (h : down min ratio n z = some r) : down min ratio (n + k) z = some r := by
  induction n generalizing z r with
  | zero => simp [down] at h
  | succ n ih =>
    rw [show n + 1 + k = (n + k) + 1 by omega]
    simp only [down] at h ⊢
    split at h
    · rename_i hz
      rw [if_pos hz]
      cases hd : down min ratio n (z / ratio) with
      | none => rw [hd] at h; simp at h
      | some t => rw [hd] at h; rw [ih _ _ hd]; exact h
    · rename_i hz
      rw [if_neg hz]; exact h

/-- For a positive lower limit the loop ends with the powers above it. -/
theorem down_spec {min ratio : ℝ} (hr : 1 < ratio) (hm : 0 < min) (z : ℝ) (hz : 0 < z) :
    ∃ n : Nat, (∀ k : Nat, min < z / ratio ^ k ↔ k < n) ∧ down min ratio (n + 1) z = some ((List.range n).map fun k : Nat => z / ratio ^ k) := by
  have hr0 : 0 < ratio := by linarith
  obtain ⟨j, hj⟩ := pow_unbounded_of_one_lt (z / min) hr
  have hj' : z / ratio ^ j ≤ min := by
    rw [div_lt_iff₀ hm] at hj
    rw [div_le_iff₀ (pow_pos hr0 j)]
    linarith [mul_comm min (ratio ^ j)]
  clear hj
  induction j generalizing z with
  | zero =>
    refine ⟨0, fun k => ?_, ?_⟩
    · have h1 : (1 : ℝ) ≤ ratio ^ k := one_le_pow₀ hr.le
      have h2 : z / ratio ^ k ≤ z := div_le_self hz.le h1
      rw [pow_zero, div_one] at hj'
      simp only [Nat.not_lt_zero, iff_false, not_lt]
      linarith
    · rw [pow_zero, div_one] at hj'
      simp [down, not_lt.mpr hj']
  | succ j ih =>
    by_cases hlt : min < z
    · obtain ⟨n, h1, h2⟩ := ih (z / ratio) (div_pos hz hr0) (by rw [div_div, ← pow_succ']; exact hj')
      have e : ∀ k : Nat, z / ratio / ratio ^ k = z / ratio ^ (k + 1) := fun k => by rw [div_div, ← pow_succ']
      refine ⟨n + 1, fun k => ?_, ?_⟩
      · cases k with
        | zero => simp [hlt]
        | succ k => rw [← e, h1]; omega
      · rw [down, if_pos hlt, h2, Option.map_some, List.range_succ_eq_map, List.map_cons, List.map_map, pow_zero, div_one]
        congr 2
        refine List.map_congr_left fun k _ => ?_
        simp only [Function.comp]
        exact e k
    · refine ⟨0, fun k => ?_, ?_⟩
      · have h1 : (1 : ℝ) ≤ ratio ^ k := one_le_pow₀ hr.le
        have h2 : z / ratio ^ k ≤ z := div_le_self hz.le h1
        simp only [Nat.not_lt_zero, iff_false, not_lt]
        linarith [not_lt.mp hlt]
      · simp [down, hlt]

/-- For a negative one it does not. -/
theorem down_endless {min ratio : ℝ} (hr : 1 < ratio) (hm : min < 0) (n : Nat) (z : ℝ) (hz : min < z) : down min ratio n z = none := by
  have hr0 : 0 < ratio := by linarith
  induction n generalizing z with
  | zero => rfl
  | succ n ih =>
    have : min < z / ratio := by
      rw [lt_div_iff₀ hr0]
      nlinarith
    rw [down, if_pos hz, ih _ this]
    rfl

theorem makeMesh_spec (set : Cmd.BrSet) (h0 : 0 < set.min) (h1 : set.min < set.max) (h2 : 1 < set.ratio) :
    ∃ (N : Nat) (m : List ℝ), Geometric set m ∧ ∀ fuel, N ≤ fuel → makeMesh set fuel = .ok m := by
  have h0' : (0 : ℝ) < (set.min : ℝ) := by exact_mod_cast h0
  have h1' : (set.min : ℝ) < (set.max : ℝ) := by exact_mod_cast h1
  have h2' : (1 : ℝ) < (set.ratio : ℝ) := by exact_mod_cast h2
  obtain ⟨n, a1, a2⟩ := down_spec h2' h0' (set.max : ℝ) (h0'.trans h1')
  have hn : 1 ≤ n := (a1 0).1 (by simpa using h1')
  obtain ⟨b1, b2⟩ := Broad.mesh_points (set.max : ℝ) (set.accumulation : ℝ) set.meshpos set.meshneg ((List.range n).map fun k : Nat => (set.max : ℝ) / (set.ratio : ℝ) ^ k)
  refine ⟨n + 1, _, ⟨n, hn, a1, b1, ?_⟩, fun fuel hf => ?_⟩
  · rw [List.map_map, List.map_map] at b2
    exact b2
  · obtain ⟨k, rfl⟩ := Nat.exists_eq_add_of_le hf
    rw [makeMesh, if_pos ⟨h1', h2'⟩, down_mono (n + 1) k _ _ a2]

theorem geometric_ne {set : Cmd.BrSet} {m : List ℝ} (h : Geometric set m) (hs : set.meshpos = true ∨ set.meshneg = true) : m ≠ [] := by
  obtain ⟨n, hn, -, -, hp⟩ := h
  intro e
  have := hp.length_eq
  rw [e, List.length_append] at this
  rcases hs with hs | hs <;> rw [hs] at this <;> simp at this <;> omega

/-- No point of the mesh is zero when the accumulation point is not negative. -/
theorem geometric_zero {set : Cmd.BrSet} {m : List ℝ} (h : Geometric set m) (h0 : 0 < set.min) (h1 : set.min < set.max) (h2 : 1 < set.ratio) (ha : 0 ≤ set.accumulation) : (0 : ℝ) ∉ m := by
  obtain ⟨n, hn, hk, -, hp⟩ := h
  have h0' : (0 : ℝ) < (set.min : ℝ) := by exact_mod_cast h0
  have hM : (0 : ℝ) < (set.max : ℝ) := h0'.trans (by exact_mod_cast h1)
  have hA : (0 : ℝ) ≤ (set.accumulation : ℝ) := by exact_mod_cast ha
  have h2' : (1 : ℝ) < (set.ratio : ℝ) := by exact_mod_cast h2
  have pos : ∀ k : Nat, 0 < (set.accumulation : ℝ) + (set.max : ℝ) / (set.ratio : ℝ) ^ k * ((set.max - set.accumulation) / set.max) := by
    intro k
    have hq : (1 : ℝ) ≤ (set.ratio : ℝ) ^ k := one_le_pow₀ h2'.le
    have hq0 : (0 : ℝ) < (set.ratio : ℝ) ^ k := lt_of_lt_of_le one_pos hq
    have : (set.accumulation : ℝ) + (set.max : ℝ) / (set.ratio : ℝ) ^ k * ((set.max - set.accumulation) / set.max) =
        set.accumulation * (1 - 1 / (set.ratio : ℝ) ^ k) + set.max / (set.ratio : ℝ) ^ k := by
      field_simp
      ring
    rw [this]
    have h3 : 1 / (set.ratio : ℝ) ^ k ≤ 1 := by rw [div_le_one hq0]; exact hq
    have h4 : 0 < (set.max : ℝ) / (set.ratio : ℝ) ^ k := div_pos hM hq0
    have h5 : 0 ≤ (set.accumulation : ℝ) * (1 - 1 / (set.ratio : ℝ) ^ k) := mul_nonneg hA (by linarith)
    linarith
  intro hz
  rw [hp.mem_iff, List.mem_append] at hz
  rcases hz with hz | hz
  · split at hz
    · obtain ⟨k, -, e⟩ := List.mem_map.1 hz
      exact absurd e (pos k).ne'
    · simp at hz
  · split at hz
    · obtain ⟨k, -, e⟩ := List.mem_map.1 hz
      have := pos k
      dsimp only at e
      linarith
    · simp at hz

theorem shift_zero {acc x p : ℝ} (h : (Broad.shift acc x p).1 = 0) : x = 0 := by
  unfold Broad.shift at h
  dsimp only at h
  split at h
  · rename_i h1
    dsimp only at h
    split at h
    · dsimp only at h
      linarith
    · dsimp only at h
      linarith [h1.1]
  · dsimp only at h
    split at h
    · rename_i h2
      dsimp only at h
      linarith [h2.1]
    · exact h

theorem number_of_ne {S : Broad.Settings} {m : List ℝ} {s : List (ℝ × ℝ)} (h : S.gaussian = true ∨ (0 : ℝ) ∉ m) :
    ¬ ∃ x ∈ m, ∃ p ∈ s, NotNumber S x p.1 := by
  rintro ⟨x, hx, p, -, h1, h2, -⟩
  rcases h with h | h
  · rw [h] at h1; simp at h1
  · rw [shift_zero h2] at hx; exact h hx

/-! ## The values -/

theorem filtered_sum (set : Cmd.BrSet) (f : ℝ → ℝ) (N : Nat) (rows : Nat → List (List ℝ)) :
    ((filter set (Tools.mergeFiles ((List.range N).map fun i : Nat => Zrun.pairs set.cols.col (rows (i + 1))))).map fun p => p.2 * f p.1).sum =
      mean set N rows f := by
  classical
  rw [filter_spec, List.map_map]
  have e : ((fun p : ℝ × ℝ => p.2 * f p.1) ∘ fun p : ℝ × ℝ => (p.1, if Kept set p.1 then p.2 else 0)) =
      fun p : ℝ × ℝ => p.2 * (fun x => if Kept set x then f x else 0) p.1 := by
    funext p
    simp only [Function.comp]
    split <;> simp
  rw [e]
  refine Eq.trans (Zrun.merge_sum (fun x => if Kept set x then f x else 0) _) ?_
  rw [List.map_map, List.length_map, List.length_range, mean, sumRows]
  congr 2
  refine List.map_congr_left fun i _ => ?_
  simp only [Function.comp, Zrun.pairs, List.map_map]
  congr 1
  refine List.map_congr_left fun r _ => ?_
  simp only [Function.comp]
  split <;> simp

theorem filter_increasing (set : Cmd.BrSet) (s : List (ℝ × ℝ)) (h : Tools.Increasing s) : (filter set s).Pairwise fun p q => p.1 ≤ q.1 := by
  classical
  rw [filter_spec, List.pairwise_map]
  exact List.Pairwise.imp (fun h => le_of_lt h) h

theorem below_sum (x : ℝ) (s : List (ℝ × ℝ)) : Tools.weightBelow x s = (s.map fun p => p.2 * (if p.1 < x then 1 else 0)).sum := by
  unfold Tools.weightBelow Tools.total
  induction s with
  | nil => rfl
  | cons p s ih =>
    by_cases hp : p.1 < x
    · simp only [List.filter_cons, hp, decide_true, if_true, List.map_cons, List.sum_cons, mul_one]
      rw [← ih]
    · simp only [List.filter_cons, hp, decide_false, if_false, List.map_cons, List.sum_cons, mul_zero, zero_add]
      exact ih

theorem sums_eq (T : ℝ) (s : List (ℝ × ℝ)) : Broad.sumrules T s = {
    sum := (s.map fun p => p.2 * (fun _ => (1 : ℝ)) p.1).sum
    pos := (s.map fun p => p.2 * (fun y : ℝ => if 0 < y then (1 : ℝ) else 0) p.1).sum
    neg := (s.map fun p => p.2 * (fun y : ℝ => if y < 0 then (1 : ℝ) else 0) p.1).sum
    fermi := (s.map fun p => p.2 * (fun y : ℝ => 1 / (1 + Real.exp (-y / T))) p.1).sum
    bose := (s.map fun p => p.2 * (fun y : ℝ => if y = 0 then 0 else 1 / (1 - Real.exp (-y / T))) p.1).sum
    fermiInv := (s.map fun p => p.2 * (fun y : ℝ => 1 / (1 + Real.exp (y / T))) p.1).sum
    boseInv := (s.map fun p => p.2 * (fun y : ℝ => if y = 0 then 0 else 1 / (1 - Real.exp (y / T))) p.1).sum } := by
  induction s using List.reverseRecOn with
  | nil => simp [Broad.sumrules]
  | append_singleton l p ih =>
    rw [Broad.sumrules_concat, ih]
    simp only [Broad.sumStep, List.map_append, List.sum_append, List.map_cons, List.map_nil, List.sum_cons, List.sum_nil, add_zero, Broad.Sums.mk.injEq]
    refine ⟨by ring, ?_, ?_, by ring, ?_, by ring, ?_⟩
    · split <;> ring
    · split <;> ring
    · split <;> ring
    · split <;> ring

theorem sum_nonneg' {A : Type} (l : List A) (f : A → ℝ) (h : ∀ a ∈ l, 0 ≤ f a) : 0 ≤ (l.map f).sum := by
  refine List.sum_nonneg fun y hy => ?_
  obtain ⟨a, ha, rfl⟩ := List.mem_map.1 hy
  exact h a ha

theorem mean_nonneg (set : Cmd.BrSet) (N : Nat) (rows : Nat → List (List ℝ)) (f : ℝ → ℝ) (hf : ∀ y, 0 ≤ f y)
    (h : ∀ i, 1 ≤ i → i ≤ N → ∀ r ∈ rows i, 0 ≤ weight set.cols.col r) : 0 ≤ mean set N rows f := by
  classical
  unfold mean sumRows
  refine div_nonneg (sum_nonneg' _ _ fun i hi => sum_nonneg' _ _ fun r hr => ?_) (Nat.cast_nonneg N)
  split
  · exact mul_nonneg (h (i + 1) (by omega) (by simpa using hi) r hr) (hf _)
  · exact le_refl _

theorem gaussianKernel_nonneg {sigma : ℝ} (hs : 0 < sigma) (x y : ℝ) : 0 ≤ Broad.gaussianKernel x y sigma := by
  unfold Broad.gaussianKernel
  positivity

theorem zip_snd (m a : List ℝ) (h : a.length = m.length) : (m.zip a).map Prod.snd = a := List.map_snd_zip (by omega)

theorem passes_length (c : Cmd.Broaden) (m a : List ℝ) (h : a.length = m.length) : (passes c m a).length = m.length := by
  unfold passes
  dsimp only
  cases c.set.finalGauss <;> cases c.set.finalDer <;> simp [Broad.convolve, h]

theorem passes_nonneg (c : Cmd.Broaden) (m a : List ℝ) (h : a.length = m.length) (hm : m.Pairwise (· ≤ ·)) (hT : 0 < c.T)
    (hg : ∀ g, c.set.finalGauss = some g → 0 < g) (hd : ∀ g, c.set.finalDer = some g → 0 < g) (ha : ∀ y ∈ a, 0 ≤ y) :
    ∀ y ∈ passes c m a, 0 ≤ y := by
  have hT' : (0 : ℝ) < (c.T : ℝ) := by exact_mod_cast hT
  have k1 : ∀ b : List ℝ, b.length = m.length → (∀ y ∈ b, 0 ≤ y) → ∀ g, c.set.finalGauss = some g →
      ∀ y ∈ Broad.convolve Broad.gaussianKernel ((g : ℝ) * (c.T : ℝ)) m b, 0 ≤ y := fun b hb h0 g e =>
    (Broad.final_pass _ _ m b hb).2.2 (fun x y => gaussianKernel_nonneg (mul_pos (by exact_mod_cast hg g e) hT') x y) hm h0
  have k2 : ∀ b : List ℝ, b.length = m.length → (∀ y ∈ b, 0 ≤ y) → ∀ g, c.set.finalDer = some g →
      ∀ y ∈ Broad.convolve Broad.derfdKernel ((g : ℝ) * (c.T : ℝ)) m b, 0 ≤ y := fun b hb h0 g e =>
    (Broad.final_pass _ _ m b hb).2.2 (fun x y => Broad.derfd_nonneg (mul_pos (by exact_mod_cast hd g e) hT') x y) hm h0
  unfold passes
  dsimp only
  cases h1 : c.set.finalGauss with
  | none =>
    cases h2 : c.set.finalDer with
    | none => exact ha
    | some d => exact k2 a h ha d h2
  | some g =>
    cases h2 : c.set.finalDer with
    | none => exact k1 a h ha g h1
    | some d => exact k2 _ (by simp [Broad.convolve]) (k1 a h ha g h1) d h2

theorem zip_self (m : List ℝ) (f : ℝ → ℝ) : m.zip (m.map f) = m.map fun x => (x, f x) := by
  induction m with
  | nil => rfl
  | cons x m ih => rw [List.map_cons, List.zip_cons_cons, List.map_cons, ih]

end Verif.Brun
