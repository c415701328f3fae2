import Verif.Wrun.Props
/-!
# `bw`: runs without a usable result
-/

namespace Verif.Wrun
open Verif.Text Verif.Cmd
open Verif.Zrun (Files Stored)

/-- **C141.** Part: if one of the raw spectra is missing or does not consist of whole pairs of numbers, the run does not end with success. -/
theorem bw_input_partial (bins : Files (Zrun.Bin ℝ)) (texts : Files Table) (fuel : Nat) (l : Line) (n b z : Str) (h : Asks l n b z) (i : Nat) (h1 : 1 ≤ i)
    (h2 : i ≤ (int z).toNat)
    (hbad : ∀ f, bins (if given 'o' l.options = true ∧ (int z).toNat = 1 then n else natStr i ++ '/' :: n) = some f → f.extra ≠ 0 ∨ f.nums.length % 2 ≠ 0) :
    ∀ after, bw bins texts fuel l.words ≠ .ok after := by
  intro after hok
  have hz : (int z = 1) ↔ (int z).toNat = 1 := by omega
  have hsrc : source n (Bw.fileOf (wanted l b z) i) = if given 'o' l.options = true ∧ (int z).toNat = 1 then n else natStr i ++ '/' :: n := by
    unfold Bw.fileOf
    change source n (if given 'o' l.options = true ∧ int z = 1 then none else some i) = _
    simp only [hz]
    split <;> rfl
  obtain ⟨x, hx⟩ := Bw.bw_refuses_partial (o := wanted l b z) (files := input bins n) h1 (show (i : Int) ≤ int z by omega) (by
    intro f hf
    unfold input at hf
    rw [hsrc] at hf
    obtain ⟨g, hg, rfl⟩ := Option.map_eq_some_iff.1 hf
    rintro ⟨c1, c2⟩
    rcases hbad g hg with h | h
    · exact h c1
    · exact h c2) fuel
  rw [asks_bw h, hx] at hok
  simp at hok

/-- **C141.** A number of iterations that is zero or negative, or that cannot be read, is accepted: the run ends with success, and no spectrum has been written. -/
theorem no_iterations (bins : Files (Zrun.Bin ℝ)) (l : Line) (n b z : Str) (h : Asks l n b z) (ho : (wanted l b z).OK) (rows : Nat → List (List ℝ))
    (hs : Stored bins (given 'o' l.options) (int z).toNat n 1 rows) (k : Str) (hk : argOf 'n' l.options = some k) (h0 : int k ≤ 0) :
    ∃ N, ∀ fuel, N ≤ fuel → ∃ after : Files Table → Files Table, (∀ texts, bw bins texts fuel l.words = .ok (after texts)) ∧
      ∀ texts fn, fn ≠ ['b', '.', 'd', 'a', 't'] → after texts fn = texts fn := by
  obtain ⟨s, N, m, -, -, -, hN⟩ := bw_run bins l n b z h ho rows hs
  refine ⟨N, fun fuel hf => ?_⟩
  obtain ⟨after, a1, -, a3⟩ := hN fuel hf
  refine ⟨after, a1, fun texts fn hfn => a3 texts fn ?_⟩
  have hit : (wanted l b z).iters = int k := by
    show ((argOf 'n' l.options).map int).getD 10 = _
    rw [hk]; rfl
  rintro (⟨-, e⟩ | ⟨i, i1, i2, -⟩)
  · exact hfn e
  · rw [hit] at i2
    omega

/-- Non-vacuity: `-n three`. -/
example : ∃ N, ∀ fuel, N ≤ fuel → ∃ after : Files Table → Files Table, (∀ texts, bw exBins texts fuel (exLine ['t', 'h', 'r', 'e', 'e']).words = .ok (after texts)) ∧
    ∀ texts fn, fn ≠ ['b', '.', 'd', 'a', 't'] → after texts fn = texts fn :=
  no_iterations exBins (exLine ['t', 'h', 'r', 'e', 'e']) _ _ _ (exLine_asks _) (exLine_ok _) exRows exStored ['t', 'h', 'r', 'e', 'e'] rfl (by decide)

/-- **C141.** A lower end of the mesh that is zero or negative, or that cannot be read, is accepted: the run never ends. -/
theorem unreadable_endless (bins : Files (Zrun.Bin ℝ)) (l : Line) (n b z : Str) (h : Asks l n b z) (rows : Nat → List (List ℝ))
    (hs : Stored bins (given 'o' l.options) (int z).toNat n 1 rows) (k : Str) (hk : argOf 'm' l.options = some k) (h0 : num k ≤ 0)
    (h1 : 0 < (wanted l b z).max) (h2 : 1 < (wanted l b z).ratio) (h3 : Bw.lower (wanted l b z) ≤ (wanted l b z).b0) (texts : Files Table) (fuel : Nat) :
    bw bins texts fuel l.words = .error (.run .fuel) := by
  have hm : (wanted l b z).min = ((num k : ℚ) : ℝ) := by
    show ((numOf 'm' (1 / 10000000) l.options : ℚ) : ℝ) = _
    rw [numOf, hk]; rfl
  rw [asks_bw h, Bw.bw_endless (o := wanted l b z) (by show (0 : ℝ) < (num b : ℚ); exact_mod_cast h.2.2.2.1) h.2.2.2.2 (by rw [hm]; exact_mod_cast h0) h1 h2 h3
    (stored_files hs)]

/-- `bw -m <k> a 1 2`. -/
def exEndless (k : Str) : Line := ⟨[.apart [] 'm' k, .operand ['a'], .operand ['1'], .operand ['2']], none⟩

/-- Non-vacuity: `-m x`. -/
example (texts : Files Table) (fuel : Nat) : bw exBins texts fuel (exEndless ['x']).words = .error (.run .fuel) := by
  have e4 : (wanted (exEndless ['x']) ['1'] ['2']).b0 = ((1 : ℚ) : ℝ) := congrArg Rat.cast (show num ['1'] = 1 by decide +kernel)
  have e2 : (wanted (exEndless ['x']) ['1'] ['2']).max = ((2 : ℚ) : ℝ) := rfl
  have e3 : (wanted (exEndless ['x']) ['1'] ['2']).ratio = ((101 / 100 : ℚ) : ℝ) := rfl
  have e7 : (wanted (exEndless ['x']) ['1'] ['2']).bmin = ((-999 : ℚ) : ℝ) := rfl
  have e8 : (wanted (exEndless ['x']) ['1'] ['2']).dyn = ((-999 : ℚ) : ℝ) := rfl
  refine unreadable_endless exBins (exEndless ['x']) ['a'] ['1'] ['2'] ⟨?_, rfl, rfl, by decide +kernel, by decide⟩ exRows exStored ['x'] rfl (by decide +kernel) ?_ ?_ ?_ texts fuel
  · intro p hp
    simp only [exEndless, List.mem_cons, List.not_mem_nil, or_false] at hp
    rcases hp with rfl | rfl | rfl | rfl
    · exact ⟨by simp, (Cmd.kind_iff _ _).2.1 (by decide)⟩
    all_goals exact Or.inl (by decide)
  · rw [e2]; norm_num
  · rw [e3]; norm_num
  · unfold Bw.lower
    rw [e3, e4, e7, e8]
    norm_num

/-- **C141.** The names of the results do not contain the name of the input: a second run, for another spectrum, with the same number of iterations replaces the result
of the first, and what it leaves behind is the same as if the first run had not taken place. -/
theorem second_run_overwrites (bins : Files (Zrun.Bin ℝ)) (l1 l2 : Line) (n1 n2 b1 b2 z1 z2 : Str) (h1 : Asks l1 n1 b1 z1) (h2 : Asks l2 n2 b2 z2)
    (o1 : (wanted l1 b1 z1).OK) (o2 : (wanted l2 b2 z2).OK) (rows1 rows2 : Nat → List (List ℝ))
    (s1 : Stored bins (given 'o' l1.options) (int z1).toNat n1 1 rows1) (s2 : Stored bins (given 'o' l2.options) (int z2).toNat n2 1 rows2)
    (hi : (wanted l1 b1 z1).iters = (wanted l2 b2 z2).iters) (i : Nat) (hi1 : 1 ≤ i) (hi2 : (i : Int) = (wanted l2 b2 z2).iters) :
    ∃ N, ∀ fuel, N ≤ fuel → ∀ texts, ∃ t1 t2 t, bw bins texts fuel l1.words = .ok t1 ∧ bw bins t1 fuel l2.words = .ok t2 ∧ bw bins texts fuel l2.words = .ok t ∧
      t1 (result i) ≠ none ∧ t2 (result i) = t (result i) := by
  obtain ⟨_, N1, _, -, -, -, k1⟩ := bw_run bins l1 n1 b1 z1 h1 o1 rows1 s1
  obtain ⟨_, N2, _, -, -, -, k2⟩ := bw_run bins l2 n2 b2 z2 h2 o2 rows2 s2
  refine ⟨max N1 N2, fun fuel hf texts => ?_⟩
  obtain ⟨a1, p1, p2, -⟩ := k1 fuel (le_trans (le_max_left _ _) hf)
  obtain ⟨a2, q1, q2, -⟩ := k2 fuel (le_trans (le_max_right _ _) hf)
  obtain ⟨t, _, _, e, -⟩ := q2 i hi1 (le_of_eq hi2) (Or.inr hi2)
  obtain ⟨u, _, _, e', -⟩ := p2 i hi1 (by rw [hi]; exact le_of_eq hi2) (Or.inr (by rw [hi]; exact hi2))
  exact ⟨a1 texts, a2 (a1 texts), a2 texts, p1 _, q1 _, q1 _, by rw [e']; simp, by rw [e, e]⟩

end Verif.Wrun
