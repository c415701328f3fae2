import Verif.Zrun.Lemmas
import Verif.Cmd.Props
import Verif.Tools.AvgProps
import Verif.Table.Props
/-!
# The averaging programs, from files to results
-/

namespace Verif.Zrun
open Verif.Text
open Verif.Cmd (Line given colsOf momOf int num)
open Verif.Table (Dec.value fileText values LineT)

variable {K : Type} [Field K] [LinearOrder K] [IsStrictOrderedRing K]

theorem colsOf_le (l : Cmd.Options) : (colsOf l).col ≤ (colsOf l).nrcol := by
  unfold colsOf
  dsimp only
  by_cases h : Cmd.lastAmong ['2', '3'] l = some '3'
  · have h3 : given '3' l = true := by
      have := List.mem_of_getLast? h
      rw [List.mem_filter, List.mem_map] at this
      obtain ⟨⟨p, hp, e⟩, _⟩ := this
      exact List.any_eq_true.2 ⟨p, hp, by simp [e]⟩
    simp [h, h3]
  · rw [if_neg h]
    split <;> omega

/-- **C126.** `binavg`: the averaged spectrum. The file that is written holds, in increasing order, every frequency that occurs in one of the calculations once, with the
mean over all calculations of the weight there; nothing else is changed. -/
theorem binavg_run (fs : Files (Bin K)) (l : Line) (h : l.OK ['h', 'v', 'o', '2', '3']) (hg : given 'h' l.options = false) (n z : Str) (ho : l.operands = [n, z])
    (hz : 1 ≤ int z) (rows : Nat → List (List K))
    (hs : Stored fs (given 'o' l.options) (int z).toNat n (colsOf l.options).nrcol rows) :
    ∃ s : List (K × K),
      binavg fs l.words = .ok (write fs (if given 'o' l.options then ['s', 'p', 'e', 'c', '.', 'b', 'i', 'n'] else n) ⟨s.flatMap fun p => [p.1, p.2], 0⟩) ∧
      (s.Pairwise fun p q => p.1 < q.1) ∧
      (∀ x, (∃ v, (x, v) ∈ s) ↔ ∃ i, 1 ≤ i ∧ i ≤ (int z).toNat ∧ ∃ r ∈ rows i, freq r = x) ∧
      ∀ p ∈ s, p.2 = sumRows (int z).toNat rows (fun r => if freq r = p.1 then weight (colsOf l.options).col r else 0) / ((int z).toNat : K) := by
  have hc := ((Cmd.binavg_command l h).2 hg ⟨colsOf l.options, n, int z⟩).2 ⟨n, z, ho, hz, rfl⟩
  have hm := spectrum_stored hz (colsOf_le l.options) hs
  obtain ⟨a1, a2, -, a4⟩ := Tools.merge_spec ((List.range (int z).toNat).map fun i : Nat => pairs (colsOf l.options).col (rows (i + 1)))
  refine ⟨_, ?_, a1, fun x => ?_, fun p hp => ?_⟩
  · rw [binavg, hc]
    dsimp only
    rw [show (colsOf l.options).one = given 'o' l.options from rfl, hm]
    rfl
  · have : (∃ v, (x, v) ∈ Tools.mergeFiles ((List.range (int z).toNat).map fun i : Nat => pairs (colsOf l.options).col (rows (i + 1)))) ↔
        x ∈ (Tools.mergeFiles ((List.range (int z).toNat).map fun i : Nat => pairs (colsOf l.options).col (rows (i + 1)))).map Prod.fst := by
      simp
    rw [this, a4]
    constructor
    · rintro ⟨f, hf, hx⟩
      obtain ⟨i, hi, rfl⟩ := List.mem_map.1 hf
      obtain ⟨q, hq, rfl⟩ := List.mem_map.1 hx
      obtain ⟨r, hr, rfl⟩ := List.mem_map.1 hq
      exact ⟨i + 1, by omega, by simpa using hi, r, hr, rfl⟩
    · rintro ⟨i, h1, h2, r, hr, rfl⟩
      refine ⟨pairs (colsOf l.options).col (rows i), List.mem_map.2 ⟨i - 1, by simp; omega, by rw [Nat.sub_add_cancel h1]⟩, ?_⟩
      exact List.mem_map.2 ⟨(freq r, weight (colsOf l.options).col r), List.mem_map.2 ⟨r, hr, rfl⟩, rfl⟩
  · have hw := weightAt_of_mem a1 hp
    rw [a2, List.map_map, List.length_map, List.length_range] at hw
    rw [← hw, sumRows]
    congr 2
    refine List.map_congr_left fun i _ => ?_
    simp only [Function.comp, Tools.weightAt, pairs]
    generalize rows (i + 1) = rs
    induction rs with
    | nil => rfl
    | cons r rs ih =>
      simp only [List.map_cons, List.sum_cons, List.filter_cons]
      by_cases hr : freq r = p.1
      · simp only [hr, decide_true, if_true, List.map_cons, List.sum_cons]
        rw [← hr] at ih ⊢
        rw [ih]
      · simp only [hr, decide_false, if_false, zero_add]
        exact ih

open Classical in
theorem filter_eq (set : Cmd.MomSet) (s : List (K × K)) : filter set s = s.map fun p => (p.1, p.2 * if Kept set p.1 then 1 else 0) := by
  unfold filter
  refine List.map_congr_left fun p _ => ?_
  dsimp only
  congr 1
  have hpos : (p.1 < 0 ∧ set.posonly = true) ↔ ¬ (set.posonly = true → 0 ≤ p.1) := by
    rw [Classical.not_imp, not_le, and_comm]
  have hneg : (0 < p.1 ∧ set.negonly = true) ↔ ¬ (set.negonly = true → p.1 ≤ 0) := by
    rw [Classical.not_imp, not_le, and_comm]
  rw [Kept]
  by_cases h1 : |p.1| < (set.low : K)
  · rw [if_pos h1, if_neg (c := _ ∧ _) fun h => absurd h1 (not_lt.2 h.1), mul_zero]
    cases set.high <;> simp
  · rw [if_neg h1]
    by_cases h3 : set.posonly = true → 0 ≤ p.1
    · by_cases h4 : set.negonly = true → p.1 ≤ 0
      · rw [if_neg (fun h => hneg.1 h h4), if_neg (fun h => hpos.1 h h3)]
        cases hh : set.high with
        | none => rw [if_pos ⟨not_lt.1 h1, by simp, h3, h4⟩, mul_one]
        | some b =>
          by_cases h2 : (b : K) < |p.1|
          · simp [h2, not_le.2 h2]
          · rw [if_pos ⟨not_lt.1 h1, by intro c hc; cases hc; exact not_lt.1 h2, h3, h4⟩, mul_one]
            dsimp only
            rw [if_neg h2]
      · rw [if_pos (hneg.2 h4), if_neg (c := _ ∧ _) fun h => h4 h.2.2.2, mul_zero]
    · rw [if_pos (hpos.2 h3), ite_self, if_neg (c := _ ∧ _) fun h => h3 h.2.2.1, mul_zero]

open Classical in
/-- The mean over the calculations of the sum of `w f(ω)` over the rows that are kept. -/
noncomputable def keptSum (set : Cmd.MomSet) (N : Nat) (rows : Nat → List (List K)) (f : K → K) : K :=
  sumRows N rows (fun r => if Kept set (freq r) then weight 1 r * f (freq r) else 0) / (N : K)

theorem filtered_sum (set : Cmd.MomSet) (N : Nat) (rows : Nat → List (List K)) (f : K → K) :
    ((filter set (Tools.mergeFiles ((List.range N).map fun i : Nat => pairs 1 (rows (i + 1))))).map fun p => p.2 * f p.1).sum = keptSum set N rows f := by
  classical
  rw [filter_eq, List.map_map]
  have := merge_sum (fun x => (if Kept set x then 1 else 0) * f x) ((List.range N).map fun i : Nat => pairs 1 (rows (i + 1)))
  simp only [Function.comp_def]
  simp only [← mul_assoc] at this
  rw [this, keptSum, sumRows, List.length_map, List.length_range, List.map_map]
  congr 2
  refine List.map_congr_left fun i _ => ?_
  simp only [Function.comp, pairs, List.map_map]
  congr 1
  refine List.map_congr_left fun r _ => ?_
  simp only [Function.comp]
  split <;> simp

/-- **C126.** `specmoments`: the sums of `w ω^k` over the rows that are kept, averaged over the calculations; with `-c` the second to fourth moment about the mean, per
total weight, or an error if there is no weight. -/
theorem specmoments_run (fs : Files (Bin K)) (l : Line) (h : l.OK ['v', 'o', 'l', ':', 'h', ':', 'p', 'n', 'c']) (n z : Str) (ho : l.operands = [n, z])
    (hz : 1 ≤ int z) (rows : Nat → List (List K)) (hs : Stored fs (given 'o' l.options) (int z).toNat n 1 rows) :
    let S := fun f : K → K => keptSum (momOf l.options) (int z).toNat rows f
    let W := S fun _ => 1
    let M := S fun x => x
    (given 'c' l.options = false → specmoments fs l.words = .ok [W, M, S fun x => x ^ 2, S fun x => x ^ 3, S fun x => x ^ 4]) ∧
    (given 'c' l.options = true → W = 0 → specmoments fs l.words = .error .noweight) ∧
    (given 'c' l.options = true → W ≠ 0 → specmoments fs l.words =
      .ok [W, M, (S fun x => (x - M / W) ^ 2) / W, (S fun x => (x - M / W) ^ 3) / W, (S fun x => (x - M / W) ^ 4) / W]) := by
  intro S W M
  have hc := (Cmd.specmoments_command l h ⟨momOf l.options, n, int z⟩).2 ⟨n, z, ho, hz, rfl⟩
  have hm := spectrum_stored hz (le_refl 1) hs
  have hS : ∀ f : K → K, ((filter (momOf l.options) (Tools.mergeFiles ((List.range (int z).toNat).map fun i : Nat => pairs 1 (rows (i + 1))))).map
      fun p => p.2 * f p.1).sum = S f := fun f => filtered_sum (momOf l.options) (int z).toNat rows f
  have h0 := hS fun _ => 1
  have h1 := hS fun x => x
  have h2 := hS fun x => x ^ 2
  have h3 := hS fun x => x ^ 3
  have h4 := hS fun x => x ^ 4
  have c2 := hS fun x => (x - M / W) ^ 2
  have c3 := hS fun x => (x - M / W) ^ 3
  have c4 := hS fun x => (x - M / W) ^ 4
  have e : specmoments fs l.words = moments (given 'c' l.options)
      (filter (momOf l.options) (Tools.mergeFiles ((List.range (int z).toNat).map fun i : Nat => pairs 1 (rows (i + 1))))) := by
    rw [specmoments, hc]
    dsimp only
    rw [show (momOf l.options).one = given 'o' l.options from rfl, hm]
    rfl
  rw [e]
  generalize filter (momOf l.options) (Tools.mergeFiles ((List.range (int z).toNat).map fun i : Nat => pairs 1 (rows (i + 1)))) = t at *
  have m0 : Tools.moment 0 t = W := by refine Eq.trans ?_ h0; simp [Tools.moment]
  have m1 : Tools.moment 1 t = M := by refine Eq.trans ?_ h1; simp [Tools.moment]
  have m2 : Tools.moment 2 t = _ := h2
  have m3 : Tools.moment 3 t = _ := h3
  have m4 : Tools.moment 4 t = _ := h4
  refine ⟨fun hg => ?_, fun hg hw => ?_, fun hg hw => ?_⟩
  · simp only [moments, hg, m0, m1, m2, m3, m4, Bool.false_eq_true, if_false]
  · simp only [moments, hg, m0, hw, if_true]
  · simp only [moments, hg, m0, m1, hw, if_true, if_false, c2, c3, c4]

/-- **C126.** `mats`: line `n` holds the fermionic frequency `(2n+1)πT`, real and imaginary part of the mean over the calculations of `Σ w/(iω - ε)`. -/
theorem mats_run (fs : Files (Bin ℝ)) (l : Line) (h : l.OK ['h', 'v', 'o', '2', '3']) (hg : given 'h' l.options = false) (n z t m : Str)
    (ho : l.operands = [n, z, t, m]) (hz : 1 ≤ int z) (ht : 0 < num t) (hm : 1 ≤ int m) (rows : Nat → List (List ℝ))
    (hs : Stored fs (given 'o' l.options) (int z).toNat n (colsOf l.options).nrcol rows) :
    mats fs l.words = .ok ((List.range (int m).toNat).map fun k : Nat =>
      let w : ℝ := (2 * k + 1) * Real.pi * (num t : ℝ)
      let g : ℂ := (((List.range (int z).toNat).map fun i : Nat => ((rows (i + 1)).map fun r =>
        ((weight (colsOf l.options).col r : ℝ) : ℂ) / ((w : ℂ) * Complex.I - ((freq r : ℝ) : ℂ))).sum).sum) / ((int z).toNat : ℂ)
      (w, g.re, g.im)) := by
  have hc := ((Cmd.mats_command l h).2 hg ⟨colsOf l.options, n, int z, num t, int m⟩).2 ⟨n, z, t, m, ho, hz, ht, hm, rfl⟩
  have hsp := spectrum_stored hz (colsOf_le l.options) hs
  have hT : (0 : ℝ) < (num t : ℝ) := by exact_mod_cast ht
  have hlen : ∀ i ∈ List.range (int z).toNat, ∀ r ∈ rows (i + 1), r.length = 1 + (colsOf l.options).nrcol :=
    fun i hi => (hs (i + 1) (by omega) (by simpa using hi)).1
  have hbuf : ∀ b ∈ (List.range (int z).toNat).map (fun i : Nat => (rows (i + 1)).flatten), b.length % (1 + (colsOf l.options).nrcol) = 0 := by
    intro b hb
    obtain ⟨i, hi, rfl⟩ := List.mem_map.1 hb
    rw [flatten_length _ (hlen i hi)]
    exact Nat.mul_mod_left _ _
  have hmain := (Mats.mats_output (colsOf l.options).nrcol (colsOf l.options).col hT (int m).toNat _ hbuf).1
  have hpts : ∀ i ∈ List.range (int z).toNat, Tools.points (colsOf l.options).nrcol (colsOf l.options).col (rows (i + 1)).flatten =
      pairs (colsOf l.options).col (rows (i + 1)) := fun i hi =>
    (Tools.points_spec _ _ _ (hlen i hi) (colsOf_le l.options)).2
  have hload : ((List.range (int z).toNat).map (fun i : Nat => (rows (i + 1)).flatten)).mapM (Tools.loadRows (colsOf l.options).nrcol) =
      some ((List.range (int z).toNat).map (fun i : Nat => (rows (i + 1)).flatten)) := by
    have := Spectral.mapM_of_forall ((List.range (int z).toNat).map (fun i : Nat => (rows (i + 1)).flatten)) (Tools.loadRows (colsOf l.options).nrcol) id
      (fun b hb => by rw [Tools.loadRows, if_pos (hbuf b hb)]; rfl)
    simpa using this
  rw [Mats.main, hload] at hmain
  dsimp only at hmain
  rw [List.map_map, List.map_congr_left (f := Tools.points (colsOf l.options).nrcol (colsOf l.options).col ∘ fun i : Nat => (rows (i + 1)).flatten) (g := fun i : Nat => pairs (colsOf l.options).col (rows (i + 1))) (fun i hi => hpts i hi)] at hmain
  rw [mats, hc]
  dsimp only
  rw [show (colsOf l.options).one = given 'o' l.options from rfl, hsp]
  dsimp only
  rw [hmain]
  dsimp only
  congr 1
  refine List.map_congr_left fun k _ => ?_
  have : (List.map (fun b => Mats.greens (Tools.points (colsOf l.options).nrcol (colsOf l.options).col b) ((((2 * k + 1) * Real.pi * (num t : ℝ) : ℝ) : ℂ) * Complex.I))
      ((List.range (int z).toNat).map (fun i : Nat => (rows (i + 1)).flatten))).sum =
      ((List.range (int z).toNat).map fun i : Nat => ((rows (i + 1)).map fun r =>
        ((weight (colsOf l.options).col r : ℝ) : ℂ) / ((((2 * k + 1) * Real.pi * (num t : ℝ) : ℝ) : ℂ) * Complex.I - ((freq r : ℝ) : ℂ))).sum).sum := by
    rw [List.map_map]
    congr 1
    refine List.map_congr_left fun i hi => ?_
    simp only [Function.comp]
    rw [hpts i hi, Mats.greens, pairs, List.map_map]
    rfl
  rw [this, List.length_map, List.length_range]

/-- **C126.** `intavg`: tables with comments at the beginning and increasing arguments. The file written (in the current directory) has one row per point of a mesh of
arguments from the tables, with the mean of the linear interpolations; every argument of a table is represented to one part in a million. -/
theorem intavg_run (fs : Files Str) (l : Line) (h : l.OK ['h', 'v', 'V']) (hg : given 'h' l.options = false) (n z : Str) (ho : l.operands = [n, z])
    (hz : 1 ≤ int z) (head rows : Nat → List LineT) (hh : ∀ i, ∀ c ∈ head i, c.OK ∧ c.isComment) (hr : ∀ i, ∀ r ∈ rows i, r.OK ∧ r.noComment)
    (hf : ∀ i, 1 ≤ i → i ≤ (int z).toNat → fs (natStr i ++ '/' :: n) = some (fileText (head i ++ rows i)))
    (tab : Nat → List (ℚ × ℚ)) (ht : ∀ i, tab i = (values (rows i)).map fun p => (Dec.value p.1, Dec.value p.2))
    (h2 : ∀ i, 1 ≤ i → i ≤ (int z).toNat → 2 ≤ (tab i).length ∧ (tab i).Pairwise fun p q => p.1 < q.1)
    (F : Nat → ℚ → ℚ) (hF : ∀ i, 1 ≤ i → i ≤ (int z).toNat → ∀ x, Tools.IsInterp (tab i) x (F i x)) :
    ∃ mesh : List ℚ,
      intavg fs l.words = .ok (n, mesh.map fun x => (x, ((List.range (int z).toNat).map fun i : Nat => F (i + 1) x).sum / ((int z).toNat : ℚ))) ∧
      mesh.Pairwise (· ≤ ·) ∧
      (∀ x ∈ mesh, ∃ i, 1 ≤ i ∧ i ≤ (int z).toNat ∧ ∃ y, (x, y) ∈ tab i) ∧
      ∀ i, 1 ≤ i → i ≤ (int z).toNat → ∀ p ∈ tab i, ∃ x ∈ mesh, x ≤ p.1 ∧ (x = p.1 ∨ p.1 - x < |x| / 1000000) := by
  have hc := ((Cmd.intavg_command l h).2 hg (n, int z)).2 ⟨n, z, ho, hz, rfl⟩
  have hload : each (loadText fs) (places false (int z) n) = .ok ((List.range (int z).toNat).map fun i : Nat => tab (i + 1)) := by
    unfold places
    apply each_ok
    intro i hi
    have hi' : i + 1 ≤ (int z).toNat := by simpa using hi
    have : place false (int z) n (i + 1) = natStr (i + 1) ++ '/' :: n := rfl
    rw [this, loadText, hf (i + 1) (by omega) hi']
    dsimp only
    rw [Table.kkRead_file_partial _ _ (hh (i + 1)) (hr (i + 1)), ← ht, if_neg (not_lt.2 (h2 (i + 1) (by omega) hi').1)]
  have hgood : ∀ i ∈ List.range (int z).toNat, Tools.Good (tab (i + 1)) := by
    intro i hi
    obtain ⟨a, b⟩ := h2 (i + 1) (by omega) (by simpa using hi)
    refine ⟨a, fun j hj => ?_⟩
    have := List.pairwise_iff_getElem.1 b j (j + 1) (by omega) hj (by omega)
    simpa [Tools.Tab.x, List.getD_eq_getElem, hj, (by omega : j < (tab (i + 1)).length)] using this
  -- a function of the table
  obtain ⟨G, hG⟩ : ∃ G : Tools.Tab ℚ → ℚ → ℚ, ∀ i ∈ List.range (int z).toNat, G (tab (i + 1)) = F (i + 1) := by
    classical
    refine ⟨fun t x => if hx : ∃ i, i ∈ List.range (int z).toNat ∧ tab (i + 1) = t then F (Classical.choose hx + 1) x else 0, fun i hi => ?_⟩
    funext x
    have hx : ∃ j, j ∈ List.range (int z).toNat ∧ tab (j + 1) = tab (i + 1) := ⟨i, hi, rfl⟩
    dsimp only
    rw [dif_pos hx]
    obtain ⟨e1, e2⟩ := Classical.choose_spec hx
    have h1 := hF (Classical.choose hx + 1) (by omega) (by simpa using e1) x
    rw [e2] at h1
    exact Tools.IsInterp.unique (hgood i hi) h1 (hF (i + 1) (by omega) (by simpa using hi) x)
  have hav := Tools.intavg_spec ((List.range (int z).toNat).map fun i : Nat => tab (i + 1))
    (by
      intro t ht
      obtain ⟨i, hi, rfl⟩ := List.mem_map.1 ht
      exact hgood i hi) G
    (by
      intro t ht x
      obtain ⟨i, hi, rfl⟩ := List.mem_map.1 ht
      rw [hG i hi]
      exact hF (i + 1) (by omega) (by simpa using hi) x)
  obtain ⟨m1, m2, m3⟩ := Tools.mesh_spec (((List.range (int z).toNat).map fun i : Nat => tab (i + 1)).map fun t => t.map Prod.fst)
  refine ⟨_, ?_, m3.imp fun h => h.1, fun x hx => ?_, fun i h1 hi p hp => ?_⟩
  · rw [intavg, hc]
    dsimp only
    rw [hload]
    dsimp only
    rw [hav]
    dsimp only
    congr 2
    refine List.map_congr_left fun x _ => ?_
    rw [List.length_map, List.length_range, List.map_map]
    congr 3
    refine List.map_congr_left fun i hi => ?_
    simp only [Function.comp]
    rw [hG i hi]
  · obtain ⟨xs, hxs, hx⟩ := m1 x hx
    obtain ⟨t, ht, rfl⟩ := List.mem_map.1 hxs
    obtain ⟨i, hi, rfl⟩ := List.mem_map.1 ht
    obtain ⟨q, hq, rfl⟩ := List.mem_map.1 hx
    exact ⟨i + 1, by omega, by simpa using hi, q.2, hq⟩
  · exact m2 ((tab i).map Prod.fst) (List.mem_map.2 ⟨tab i, List.mem_map.2 ⟨i - 1, by simp; omega, by rw [Nat.sub_add_cancel h1]⟩, rfl⟩) p.1
      (List.mem_map.2 ⟨p, hp, rfl⟩)

/-- Non-vacuity: two calculations with a common frequency. -/
example : ∃ (l : Line) (fs : Files (Bin ℚ)) (rows : Nat → List (List ℚ)), l.OK ['h', 'v', 'o', '2', '3'] ∧ given 'h' l.options = false ∧
    l.operands = [['a'], ['2']] ∧ 1 ≤ int ['2'] ∧ Stored fs (given 'o' l.options) (int ['2']).toNat ['a'] (colsOf l.options).nrcol rows ∧
    (binavg fs l.words).toOption.map (fun f => f ['a']) = some (some ⟨[-1, 1 / 2, 1, 3 / 2, 2, 2], 0⟩) := by
  refine ⟨⟨[.flags ['v'], .operand ['a'], .operand ['2']], none⟩,
    fun n => if n = ['1', '/', 'a'] then some ⟨[1, 1, -1, 1], 0⟩ else if n = ['2', '/', 'a'] then some ⟨[2, 4, 1, 2], 0⟩ else none,
    fun i => if i = 1 then [[1, 1], [-1, 1]] else [[2, 4], [1, 2]], ?_, by decide, rfl, by decide, ?_, by decide +kernel⟩
  · intro p hp
    simp only [List.mem_cons, List.not_mem_nil, or_false] at hp
    rcases hp with rfl | rfl | rfl
    · refine ⟨by simp, fun f hf => ?_⟩
      rw [List.mem_singleton.1 hf]
      exact ⟨['h'], ['o', '2', '3'], rfl, by decide, by decide, by decide⟩
    · exact Or.inl (by decide)
    · exact Or.inl (by decide)
  · intro i h1 h2
    have : i = 1 ∨ i = 2 := by
      have : (int ['2']).toNat = 2 := by decide
      omega
    rcases this with rfl | rfl <;> exact ⟨by decide, by decide +kernel⟩

/-! ## Averaging first -/

theorem spectrum_average {fs : Files (Bin K)} {one : Bool} {w col : Nat} {Nz : Int} {name : Str} {s : List (K × K)}
    (h : spectrum one w col Nz name fs = .ok s) (fs' : Files (Bin K)) (n' : Str) (hf : fs' n' = some (saved s)) : spectrum true 1 1 1 n' fs' = .ok s := by
  have hinc : Tools.Increasing s := by
    unfold spectrum at h
    cases he : each (load w col fs) (places one Nz name) with
    | error e => rw [he] at h; simp at h
    | ok l =>
      rw [he] at h
      simp only [Except.ok.injEq] at h
      rw [← h]
      exact (Tools.merge_spec l).1
  have hp : places true 1 n' = [n'] := rfl
  have hsz : (saved s).size % ((1 + 1) * 8) = 0 := saved_size s
  rw [spectrum, hp]
  simp only [each, load, hf, hsz, ne_eq, not_true_eq_false, if_false]
  rw [points_saved, merge_single s hinc]

/-- **C126.** Averaging first: after a successful `binavg name Nz` the programs `specmoments` and `mats`, applied with `-o` to the one file it has written, give
exactly what they give for all the calculations (for `mats` with the column chosen for `binavg`); so does `binavg` itself. -/
theorem average_first (fs fs' : Files (Bin ℝ)) (l : Line) (h : l.OK ['h', 'v', 'o', '2', '3']) (n z : Str) (ho : l.operands = [n, z])
    (hb : binavg fs l.words = .ok fs') (n' z' : Str) (hn : n' = if given 'o' l.options then ['s', 'p', 'e', 'c', '.', 'b', 'i', 'n'] else n) (hz' : int z' = 1) :
    (∀ l1 l2 : Line, l1.OK ['v', 'o', 'l', ':', 'h', ':', 'p', 'n', 'c'] → l2.OK ['v', 'o', 'l', ':', 'h', ':', 'p', 'n', 'c'] →
      l1.operands = [n, z] → l2.operands = [n', z'] → momOf l2.options = { momOf l1.options with one := true } →
      (colsOf l.options).nrcol = 1 → given 'o' l1.options = given 'o' l.options →
      specmoments fs' l2.words = specmoments fs l1.words) ∧
    (∀ l1 l2 : Line, ∀ t m : Str, l1.OK ['h', 'v', 'o', '2', '3'] → l2.OK ['h', 'v', 'o', '2', '3'] →
      l1.operands = [n, z, t, m] → l2.operands = [n', z', t, m] → given 'h' l1.options = false → given 'h' l2.options = false → 0 < num t → 1 ≤ int m →
      colsOf l1.options = colsOf l.options → colsOf l2.options = ⟨true, 1, 1⟩ →
      mats fs' l2.words = mats fs l1.words) ∧
    (∀ l2 : Line, l2.OK ['h', 'v', 'o', '2', '3'] → given 'h' l2.options = false → l2.operands = [n', z'] → colsOf l2.options = ⟨true, 1, 1⟩ →
      binavg fs' l2.words = .ok (write fs' ['s', 'p', 'e', 'c', '.', 'b', 'i', 'n'] ((fs' n').getD ⟨[], 0⟩))) := by
  have hg : given 'h' l.options = false := by
    cases hgh : given 'h' l.options with
    | false => rfl
    | true => rw [binavg, (Cmd.binavg_command l h).1 hgh] at hb; simp at hb
  obtain ⟨r, hr⟩ : ∃ r, Cmd.binavg.main l.words = .ok r := by
    unfold binavg at hb
    cases hh : Cmd.binavg.main l.words with
    | error e => rw [hh] at hb; simp at hb
    | ok r => exact ⟨r, rfl⟩
  obtain ⟨n1, z1, e1, hz, rfl⟩ := ((Cmd.binavg_command l h).2 hg r).1 hr
  rw [ho] at e1
  simp only [List.cons.injEq, and_true] at e1
  obtain ⟨rfl, rfl⟩ := e1
  unfold binavg at hb
  rw [hr] at hb
  dsimp only at hb
  cases hsp : spectrum (colsOf l.options).one (colsOf l.options).nrcol (colsOf l.options).col (int z) n fs with
  | error e => rw [hsp] at hb; simp at hb
  | ok s =>
    rw [hsp] at hb
    simp only [Except.ok.injEq] at hb
    have hone : (colsOf l.options).one = given 'o' l.options := rfl
    have hf : fs' n' = some (saved s) := by
      rw [← hb, hn, hone, specBin, write, if_pos rfl]
    have hav := spectrum_average hsp fs' n' hf
    refine ⟨?_, ?_, ?_⟩
    · intro l1 l2 k1 k2 o1 o2 hset hcol hoo
      have c1 := (Cmd.specmoments_command l1 k1 ⟨momOf l1.options, n, int z⟩).2 ⟨n, z, o1, hz, rfl⟩
      have c2 := (Cmd.specmoments_command l2 k2 ⟨momOf l2.options, n', int z'⟩).2 ⟨n', z', o2, by omega, rfl⟩
      have hc1 : (colsOf l.options).col = 1 := by
        have h1 := colsOf_le l.options
        have h2 : 1 ≤ (colsOf l.options).col := by unfold colsOf; dsimp only; split <;> omega
        omega
      rw [hcol, hc1] at hsp
      rw [specmoments, specmoments, c1, c2]
      dsimp only
      rw [hset, hz']
      dsimp only
      rw [hav, show (momOf l1.options).one = (colsOf l.options).one from hoo, hsp]
      rfl
    · intro l1 l2 t m k1 k2 o1 o2 g1 g2 ht hm e1 e2
      have c1 := ((Cmd.mats_command l1 k1).2 g1 ⟨colsOf l1.options, n, int z, num t, int m⟩).2 ⟨n, z, t, m, o1, hz, ht, hm, rfl⟩
      have c2 := ((Cmd.mats_command l2 k2).2 g2 ⟨colsOf l2.options, n', int z', num t, int m⟩).2 ⟨n', z', t, m, o2, by omega, ht, hm, rfl⟩
      rw [mats, mats, c1, c2]
      dsimp only
      rw [e2, e1, hz']
      dsimp only
      rw [hav, hsp]
    · intro l2 k2 g2 o2 e2
      have c2 := ((Cmd.binavg_command l2 k2).2 g2 ⟨colsOf l2.options, n', int z'⟩).2 ⟨n', z', o2, by omega, rfl⟩
      rw [binavg, c2]
      dsimp only
      rw [e2, hz']
      dsimp only
      rw [hav, hf]
      rfl

end Verif.Zrun
