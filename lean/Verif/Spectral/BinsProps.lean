import Verif.Spectral.Bins
import Mathlib.Tactic.Linarith
import Mathlib.Tactic.FieldSimp
import Mathlib.Tactic.Positivity
import Mathlib.Analysis.Complex.Norm
/-!
# C31 and C32: binning, merging and trimming
-/

namespace Verif.Spectral

theorem addAt_length (b : Spikes) (i : ℕ) (w : ℂ) : (addAt b i w).length = b.length := by simp [addAt]

theorem addAt_energies (b : Spikes) (i : ℕ) (w : ℂ) : (addAt b i w).map Prod.fst = b.map Prod.fst := by
  apply List.ext_getElem?
  intro k
  simp only [addAt, List.getElem?_map, List.getElem?_modify]
  cases b[k]? with
  | none => rfl
  | some p => by_cases h : i = k <;> simp [h]

theorem addAt_other (b : Spikes) (i k : ℕ) (w : ℂ) (h : k ≠ i) : (addAt b i w)[k]? = b[k]? := by
  simp only [addAt, List.getElem?_modify]
  cases b[k]? with
  | none => rfl
  | some p => simp [Ne.symm h]

theorem addAt_same (b : Spikes) (i : ℕ) (w : ℂ) (p : ℝ × ℂ) (h : b[i]? = some p) :
    (addAt b i w)[i]? = some (p.1, p.2 + w) := by
  simp [addAt, List.getElem?_modify, h]

theorem addAt_total (b : Spikes) (i : ℕ) (w : ℂ) (h : i < b.length) :
    totalWeight (addAt b i w) = totalWeight b + w := by
  induction b generalizing i with
  | nil => simp at h
  | cons p b ih =>
    cases i with
    | zero => simp [addAt, totalWeight]; ring
    | succ i =>
      have := ih i (by simpa using h)
      simp only [addAt, totalWeight] at this
      simp only [addAt, totalWeight, List.modify_succ_cons, List.map_cons, List.sum_cons, this]
      ring

/-- The result of adding a peak of the given weight to bins `i` and `i + 1` in the
proportion `1 - r : r`. -/
structure SplitAt (b b' : Spikes) (i : ℕ) (r : ℝ) (weight : ℂ) : Prop where
  frac : 0 ≤ r ∧ r ≤ 1
  inside : i < b.length ∧ (r ≠ 0 → i + 1 < b.length)
  energies : b'.map Prod.fst = b.map Prod.fst
  others : ∀ k, k ≠ i → k ≠ i + 1 → b'[k]? = b[k]?
  first : ∀ p, b[i]? = some p → b'[i]? = some (p.1, p.2 + ((1 - r : ℝ) : ℂ) * weight)
  second : ∀ p, b[i + 1]? = some p → b'[i + 1]? = some (p.1, p.2 + (r : ℂ) * weight)
  total : totalWeight b' = totalWeight b + weight

theorem splitAt_one (b : Spikes) (i : ℕ) (w : ℂ) (h : i < b.length) : SplitAt b (addAt b i w) i 0 w where
  frac := ⟨le_rfl, zero_le_one⟩
  inside := ⟨h, fun h => absurd rfl h⟩
  energies := addAt_energies b i w
  others := fun k h1 _ => addAt_other b i k w h1
  first := fun p hp => by rw [addAt_same b i w p hp]; simp
  second := fun p hp => by rw [addAt_other b i (i + 1) w (by omega), hp]; simp
  total := addAt_total b i w h

theorem splitAt_two (b : Spikes) (i : ℕ) (r : ℝ) (w : ℂ) (h : i + 1 < b.length) (hr : 0 ≤ r ∧ r ≤ 1) :
    SplitAt b (addAt (addAt b i (((1 - r : ℝ) : ℂ) * w)) (i + 1) ((r : ℂ) * w)) i r w where
  frac := hr
  inside := ⟨by omega, fun _ => h⟩
  energies := by rw [addAt_energies, addAt_energies]
  others := fun k h1 h2 => by rw [addAt_other _ _ _ _ h2, addAt_other _ _ _ _ h1]
  first := fun p hp => by rw [addAt_other _ _ _ _ (by omega), addAt_same _ _ _ _ hp]
  second := fun p hp => by
    rw [addAt_same _ _ _ p]
    rw [addAt_other _ _ _ _ (by omega), hp]
  total := by
    rw [addAt_total _ _ _ (by rw [addAt_length]; exact h), addAt_total _ _ _ (by omega)]
    push_cast; ring

/-- **C31.** Adding a peak splits its weight between at most two adjacent bins in
proportions between 0 and 1 that add up to 1; nothing is lost, whatever the energy
and the (complex, negative, zero) weight. -/
theorem addStd_split (g : Grid) (b : Spikes) (hb : b ≠ []) (energy : ℝ) (weight : ℂ) :
    ∃ i r, SplitAt b (addStd g b energy weight) i r weight := by
  have hl : 0 < b.length := List.length_pos_iff.mpr hb
  unfold addStd
  split
  · exact ⟨0, 0, splitAt_one b 0 weight hl⟩
  · dsimp only
    split
    · exact ⟨0, 0, splitAt_one b 0 weight hl⟩
    · split
      · exact ⟨b.length - 1, 0, splitAt_one b _ weight (by omega)⟩
      · refine ⟨_, _, splitAt_two b _ _ weight (by omega) ⟨?_, ?_⟩⟩
        · have := Int.floor_le ((Real.logb 10 energy - g.log10emin) * g.bins); linarith
        · have := Int.lt_floor_add_one ((Real.logb 10 energy - g.log10emin) * g.bins); linarith

/-- What `setLimits` guarantees. -/
structure GoodGrid (g : Grid) : Prop where
  bins : 0 < g.bins
  emin : 0 < g.emin
  lo : (g.log10emin : ℝ) ≤ Real.logb 10 g.emin
  hi : Real.logb 10 g.emax ≤ (g.log10emax : ℝ)
  lt : g.emin < g.emax
  limits : g.log10emin < g.log10emax

theorem setLimits_good (bins : ℕ) (emin0 emax0 lo hi acc di dt : ℝ) (g : Grid)
    (h : setLimits bins emin0 emax0 lo hi acc di dt = some g) : GoodGrid g := by
  unfold setLimits at h
  dsimp only at h
  generalize (if emax0 > 0 then emax0 else hi) = eM at h
  generalize (if emin0 > 0 then emin0 else lo) = em at h
  split at h
  · cases h
  · split at h
    · cases h
    · rename_i h0 h1
      push Not at h1
      cases h
      have hlog := Real.logb_lt_logb (b := 10) (by norm_num) h1.1 h1.2.2
      refine ⟨by dsimp only; omega, h1.1, Int.floor_le _, Int.le_ceil _, h1.2.2, ?_⟩
      have h2 := Int.floor_le (Real.logb 10 em)
      have h3 := Int.le_ceil (Real.logb 10 eM)
      have h4 : ((⌊Real.logb 10 em⌋ : ℤ) : ℝ) < ((⌈Real.logb 10 eM⌉ : ℤ) : ℝ) := by linarith
      exact_mod_cast h4

/-- The standard grid has a point for every `1/bins` of a decade, from below `emin`
to above `emax`, strictly increasing. -/
theorem loggridStd_spec (g : Grid) (hg : GoodGrid g) :
    2 ≤ (loggridStd g).length ∧ totalWeight (loggridStd g) = 0 ∧
      (∀ i p, (loggridStd g)[i]? = some p → p.1 = binEnergy g i ∧ p.2 = 0) ∧
      (∀ i j, i < j → binEnergy g i < binEnergy g j) ∧
      binEnergy g 0 ≤ g.emin ∧ g.emax ≤ binEnergy g ((loggridStd g).length - 1) := by
  have hb : (0 : ℝ) < g.bins := by exact_mod_cast hg.bins
  have hn : ((nrBins g : ℕ) : ℤ) = (g.log10emax - g.log10emin) * g.bins + 1 := by
    unfold nrBins
    rw [Int.toNat_of_nonneg]
    have := hg.limits
    have : 0 ≤ (g.log10emax - g.log10emin) * (g.bins : ℤ) := mul_nonneg (by omega) (by omega)
    omega
  have h1 : (1 : ℤ) ≤ (g.log10emax - g.log10emin) * g.bins := by
    have h2 : (1 : ℤ) ≤ g.log10emax - g.log10emin := by have := hg.limits; omega
    have h3 : (1 : ℤ) ≤ g.bins := by have := hg.bins; omega
    nlinarith
  have hlen : (loggridStd g).length = nrBins g := by simp [loggridStd]
  refine ⟨by rw [hlen]; omega, ?_, ?_, ?_, ?_, ?_⟩
  · simp [totalWeight, loggridStd, Function.comp_def]
  · intro i p hp
    simp only [loggridStd, List.getElem?_map, Option.map_eq_some_iff] at hp
    obtain ⟨j, hj, rfl⟩ := hp
    obtain ⟨_, he⟩ := List.getElem?_eq_some_iff.mp hj
    simp only [List.getElem_range] at he
    subst he
    exact ⟨rfl, rfl⟩
  · intro i j hij
    apply Real.rpow_lt_rpow_of_exponent_lt (by norm_num)
    have : (i : ℝ) / g.bins < (j : ℝ) / g.bins := div_lt_div_of_pos_right (by exact_mod_cast hij) hb
    linarith
  · unfold binEnergy
    have : ((0 : ℕ) : ℝ) / (g.bins : ℝ) = 0 := by simp
    rw [this, add_zero, ← Real.rpow_logb (b := 10) (by norm_num) (by norm_num) hg.emin]
    exact Real.rpow_le_rpow_of_exponent_le (by norm_num) hg.lo
  · rw [hlen]
    unfold binEnergy
    have hsz : ((nrBins g - 1 : ℕ) : ℝ) = (g.log10emax - g.log10emin) * g.bins := by
      have : ((nrBins g - 1 : ℕ) : ℤ) = (g.log10emax - g.log10emin) * g.bins := by omega
      exact_mod_cast this
    rw [hsz, mul_div_assoc, div_self hb.ne', mul_one, add_sub_cancel]
    rw [← Real.rpow_logb (b := 10) (by norm_num) (by norm_num) (lt_trans hg.emin hg.lt)]
    exact Real.rpow_le_rpow_of_exponent_le (by norm_num) hg.hi

/-- **C31.** On the standard grid a peak between `emin` and the last grid point goes
to the two bins around its energy, and the weighted mean of the logarithms of the
two energies is the logarithm of the energy of the peak.  Below `emin` all weight
goes to the first bin, at or above the last grid point to the last one. -/
theorem addStd_position (g : Grid) (hg : GoodGrid g) (b : Spikes) (hb : b.length = nrBins g) (energy : ℝ)
    (weight : ℂ) :
    (energy < g.emin → addStd g b energy weight = addAt b 0 weight) ∧
      (binEnergy g (b.length - 1) ≤ energy → addStd g b energy weight = addAt b (b.length - 1) weight) ∧
      (g.emin ≤ energy → energy < binEnergy g (b.length - 1) →
        ∃ i r, SplitAt b (addStd g b energy weight) i r weight ∧ i + 1 < b.length ∧
          binEnergy g i ≤ energy ∧ energy < binEnergy g (i + 1) ∧
          (1 - r) * Real.logb 10 (binEnergy g i) + r * Real.logb 10 (binEnergy g (i + 1)) = Real.logb 10 energy) := by
  have hbp : (0 : ℝ) < g.bins := by exact_mod_cast hg.bins
  have hbne : (g.bins : ℝ) ≠ 0 := hbp.ne'
  have hlogE : ∀ i, Real.logb 10 (binEnergy g i) = (g.log10emin : ℝ) + (i : ℝ) / g.bins := fun i =>
    Real.logb_rpow (by norm_num) (by norm_num)
  have hEpos : ∀ i, 0 < binEnergy g i := fun i => Real.rpow_pos_of_pos (by norm_num) _
  have hn1 : 1 ≤ b.length := by
    rw [hb]
    have := (loggridStd_spec g hg).1
    simp [loggridStd] at this; omega
  -- position in units of bins
  have hx : ∀ e, 0 < e → ∀ i : ℕ, (binEnergy g i ≤ e ↔ (i : ℝ) ≤ (Real.logb 10 e - g.log10emin) * g.bins) := by
    intro e he i
    rw [← Real.logb_le_logb (b := 10) (by norm_num) (hEpos i) he, hlogE]
    constructor
    · intro h
      have : (i : ℝ) / g.bins ≤ Real.logb 10 e - g.log10emin := by linarith
      rwa [div_le_iff₀ hbp] at this
    · intro h
      have : (i : ℝ) / g.bins ≤ Real.logb 10 e - g.log10emin := by rwa [div_le_iff₀ hbp]
      linarith
  have hxnn : g.emin ≤ energy → 0 ≤ (Real.logb 10 energy - g.log10emin) * g.bins := by
    intro h
    have : Real.logb 10 g.emin ≤ Real.logb 10 energy :=
      (Real.logb_le_logb (b := 10) (by norm_num) hg.emin (lt_of_lt_of_le hg.emin h)).mpr h
    have h2 := hg.lo
    exact mul_nonneg (by linarith) hbp.le
  refine ⟨fun h => if_pos h, fun h => ?_, fun h1 h2 => ?_⟩
  · have hmin : g.emin ≤ energy := by
      have h5 := (loggridStd_spec g hg).2.2.2.2.2
      have h6 : (loggridStd g).length = b.length := by simp [loggridStd, hb]
      rw [h6] at h5
      linarith [hg.lt]
    have hpos := lt_of_lt_of_le hg.emin hmin
    unfold addStd
    rw [if_neg (not_lt.mpr hmin)]
    dsimp only
    have hge : (b.length - 1 : ℕ) ≤ ⌊(Real.logb 10 energy - g.log10emin) * g.bins⌋.toNat := by
      have := (hx energy hpos (b.length - 1)).mp h
      have h7 : ((b.length - 1 : ℕ) : ℤ) ≤ ⌊(Real.logb 10 energy - g.log10emin) * g.bins⌋ :=
        Int.le_floor.mpr (by exact_mod_cast this)
      omega
    have hfl : 0 ≤ ⌊(Real.logb 10 energy - g.log10emin) * g.bins⌋ := Int.floor_nonneg.mpr (hxnn hmin)
    rw [if_neg (by omega), if_pos hge]
  · have hpos := lt_of_lt_of_le hg.emin h1
    have hfl : 0 ≤ ⌊(Real.logb 10 energy - g.log10emin) * g.bins⌋ := Int.floor_nonneg.mpr (hxnn h1)
    obtain ⟨i, hi⟩ := Int.eq_ofNat_of_zero_le hfl
    have hile : (i : ℝ) ≤ (Real.logb 10 energy - g.log10emin) * g.bins := by
      have := Int.floor_le ((Real.logb 10 energy - g.log10emin) * g.bins)
      rw [hi] at this; exact_mod_cast this
    have hilt : (Real.logb 10 energy - g.log10emin) * g.bins < ((i + 1 : ℕ) : ℝ) := by
      have := Int.lt_floor_add_one ((Real.logb 10 energy - g.log10emin) * g.bins)
      rw [hi] at this; push_cast at this ⊢; exact this
    have hi1 : i + 1 < b.length := by
      by_contra hne
      have hle : ((b.length - 1 : ℕ) : ℝ) ≤ (i : ℝ) := by exact_mod_cast (by omega : b.length - 1 ≤ i)
      exact absurd ((hx energy hpos (b.length - 1)).mpr (by linarith)) (not_le.mpr h2)
    refine ⟨i, (Real.logb 10 energy - g.log10emin) * g.bins - i, ?_, hi1, (hx energy hpos i).mpr hile, ?_, ?_⟩
    · unfold addStd
      rw [if_neg (not_lt.mpr h1)]
      dsimp only
      rw [hi, if_neg (by omega), if_neg (by simp; omega)]
      have := splitAt_two b i ((Real.logb 10 energy - g.log10emin) * g.bins - i) weight hi1
        ⟨by linarith, by push_cast at hilt; linarith⟩
      simpa using this
    · by_contra hne
      push Not at hne
      exact absurd ((hx energy hpos (i + 1)).mp hne) (not_le.mpr hilt)
    · rw [hlogE, hlogE]
      push_cast
      field_simp
      ring

/-- **C31.** Binning any list of peaks one after another: the total weight of the
bins grows by the sum of the weights, and the representative energies stay. -/
theorem addStd_all (g : Grid) (b : Spikes) (hb : b ≠ []) (l : List (ℝ × ℂ)) :
    totalWeight (l.foldl (fun b p => addStd g b p.1 p.2) b) = totalWeight b + (l.map Prod.snd).sum ∧
      (l.foldl (fun b p => addStd g b p.1 p.2) b).map Prod.fst = b.map Prod.fst := by
  induction l generalizing b with
  | nil => simp
  | cons p l ih =>
    obtain ⟨i, r, h⟩ := addStd_split g b hb p.1 p.2
    have hne : addStd g b p.1 p.2 ≠ [] := by
      intro hn
      have := h.energies
      rw [hn] at this
      exact hb (List.map_eq_nil_iff.mp this.symm)
    obtain ⟨h1, h2⟩ := ih _ hne
    simp only [List.foldl_cons, List.map_cons, List.sum_cons]
    exact ⟨by rw [h1, h.total]; ring, by rw [h2, h.energies]⟩

/-! ### The grid with shifted accumulation point -/

theorem addAcc_energies (b : Spikes) (energy : ℝ) (weight : ℂ) :
    (addAcc b energy weight).map Prod.fst = b.map Prod.fst := by
  fun_induction addAcc b energy weight <;> simp_all

/-- **C31.** On a sorted grid `addAcc` conserves weight, splitting it between two
neighbouring bins around the energy so that the mean energy is exact, for every
energy inside the grid. -/
theorem addAcc_spec (b : Spikes) (hs : (b.map Prod.fst).Pairwise (· ≤ ·)) (energy : ℝ) (weight : ℂ)
    (lo hi : ℝ × ℂ) (hlo : b.head? = some lo) (hhi : b.getLast? = some hi) (h2 : 2 ≤ b.length)
    (h1 : lo.1 ≤ energy) (h3 : energy ≤ hi.1) :
    ∃ i r p q, SplitAt b (addAcc b energy weight) i r weight ∧ b[i]? = some p ∧ b[i + 1]? = some q ∧
      p.1 ≤ energy ∧ energy ≤ q.1 ∧ (1 - r) * p.1 + r * q.1 = energy := by
  have two : ∀ (p q : ℝ × ℂ) (rest : Spikes) (r : ℝ), 0 ≤ r ∧ r ≤ 1 →
      SplitAt (p :: q :: rest) ((p.1, p.2 + ((1 - r : ℝ) : ℂ) * weight) :: (q.1, q.2 + (r : ℂ) * weight) :: rest)
        0 r weight := by
    intro p q rest r hr
    have := splitAt_two (p :: q :: rest) 0 r weight (by simp) hr
    simpa [addAt, List.modify] using this
  induction b generalizing lo with
  | nil => simp at h2
  | cons p b ih =>
    cases b with
    | nil => simp at h2
    | cons q rest =>
      simp only [List.head?_cons, Option.some.injEq] at hlo
      subst hlo
      by_cases hin : energy ≤ q.1
      · by_cases hd : q.1 - p.1 ≠ 0
        · have hpos : 0 < q.1 - p.1 := lt_of_le_of_ne (by linarith) (Ne.symm hd)
          refine ⟨0, (energy - p.1) / (q.1 - p.1), p, q, ?_, rfl, rfl, h1, hin, ?_⟩
          · have := two p q rest ((energy - p.1) / (q.1 - p.1))
              ⟨div_nonneg (by linarith) hpos.le, (div_le_one hpos).mpr (by linarith)⟩
            rw [addAcc, if_pos ⟨h1, hin⟩, if_pos hd]
            exact this
          · field_simp
            ring
        · push Not at hd
          refine ⟨0, 1 / 2, p, q, ?_, rfl, rfl, h1, hin, by linarith⟩
          have := two p q rest (1 / 2) (by norm_num)
          rw [addAcc, if_pos ⟨h1, hin⟩, if_neg (by simpa using hd)]
          have e1 : ((1 - 1 / 2 : ℝ) : ℂ) = 1 / 2 := by push_cast; norm_num
          have e2 : ((1 / 2 : ℝ) : ℂ) = 1 / 2 := by push_cast; norm_num
          rw [e1, e2] at this
          exact this
      · push Not at hin
        have hl2 : 2 ≤ (q :: rest).length := by
          cases rest with
          | nil => simp at hhi; rw [← hhi] at h3; exact absurd h3 (not_le.mpr hin)
          | cons _ _ => simp
        obtain ⟨i, r, p', q', hsp, hp, hq, h4, h5, h6⟩ := ih (List.Pairwise.of_cons hs) q rfl
          (by simpa using hhi) hl2 hin.le
        have hadd : addAcc (p :: q :: rest) energy weight = p :: addAcc (q :: rest) energy weight := by
          rw [addAcc, if_neg (by rintro ⟨_, h⟩; exact absurd h (not_le.mpr hin))]
        refine ⟨i + 1, r, p', q', ?_, hp, hq, h4, h5, h6⟩
        rw [hadd]
        refine ⟨hsp.frac, ⟨by simpa using hsp.inside.1, fun h => by simpa using hsp.inside.2 h⟩, ?_, ?_, ?_, ?_, ?_⟩
        · simp only [List.map_cons]; rw [hsp.energies]; simp
        · intro k h7 h8
          cases k with
          | zero => rfl
          | succ k => exact hsp.others k (by omega) (by omega)
        · intro p2 h7; exact hsp.first p2 h7
        · intro p2 h7; exact hsp.second p2 h7
        · have := hsp.total
          simp only [totalWeight, List.map_cons, List.sum_cons] at this ⊢
          rw [this]; ring

/-- A peak outside the shifted grid is dropped. -/
theorem addAcc_outside (b : Spikes) (energy : ℝ) (weight : ℂ)
    (h : (∀ p ∈ b, energy < p.1) ∨ (∀ p ∈ b, p.1 < energy)) : addAcc b energy weight = b := by
  induction b with
  | nil => simp [addAcc]
  | cons p b ih =>
    cases b with
    | nil => simp [addAcc]
    | cons q rest =>
      rw [addAcc, if_neg, ih]
      · rcases h with h | h
        · exact Or.inl fun x hx => h x (List.mem_cons_of_mem _ hx)
        · exact Or.inr fun x hx => h x (List.mem_cons_of_mem _ hx)
      · rintro ⟨h1, h2⟩
        rcases h with h | h
        · have := h p (by simp); linarith
        · have := h q (by simp); linarith

theorem upLoop_le {ratio emax : ℝ} {f : ℝ → ℝ} {e : ℝ} {l : List ℝ} (h : UpLoop ratio emax f e l) :
    ∀ x ∈ l, ∃ y, y ≤ emax ∧ x = f y := by
  induction h with
  | stop => simp
  | step e l he _ ih =>
    intro x hx
    rcases List.mem_cons.mp hx with rfl | hx
    · exact ⟨e, he, rfl⟩
    · exact ih x hx

/-- The two loops of `loggrid_acc` end. -/
theorem upLoop_exists {ratio emax : ℝ} (f : ℝ → ℝ) (hr : 1 < ratio) {e : ℝ} (he : 0 < e) :
    ∃ l, UpLoop ratio emax f e l := by
  obtain ⟨n, hn⟩ := pow_unbounded_of_one_lt (emax / e) hr
  replace hn : emax < e * ratio ^ n := by rw [div_lt_iff₀ he] at hn; linarith
  induction n generalizing e with
  | zero => exact ⟨[], .stop e (by simpa using hn)⟩
  | succ n ih =>
    by_cases h : e ≤ emax
    · obtain ⟨l, hl⟩ := ih (e := e * ratio) (mul_pos he (by linarith)) (by rw [mul_assoc, ← pow_succ']; exact hn)
      exact ⟨_, .step e l h hl⟩
    · exact ⟨[], .stop e h⟩

theorem downLoop_exists {linstep : ℝ} (hl : 0 < linstep) (e : ℝ) : ∃ l, DownLoop linstep e l := by
  obtain ⟨n, hn⟩ := Archimedean.arch e hl
  induction n generalizing e with
  | zero => exact ⟨[], .stop e (by simpa using hn)⟩
  | succ n ih =>
    by_cases h : e > 0
    · obtain ⟨l, hl⟩ := ih (e - linstep) (by rw [succ_nsmul] at hn; linarith)
      exact ⟨_, .step e l h hl⟩
    · exact ⟨[], .stop e h⟩

/-- **C31.** The shifted grid always exists; it is sorted, empty of weight, has at
least two points when `emin ≤ emax`, and contains the smallest positive number. -/
theorem loggridAcc_spec (g : Grid) (hg : GoodGrid g) (linstep dblMin : ℝ) :
    (∃ b, LoggridAcc g linstep dblMin b) ∧
      ∀ b, LoggridAcc g linstep dblMin b →
        (b.map Prod.fst).Pairwise (· ≤ ·) ∧ totalWeight b = 0 ∧ 2 ≤ b.length ∧ (dblMin, 0) ∈ b := by
  have hb : (0 : ℝ) < g.bins := by exact_mod_cast hg.bins
  constructor
  · obtain ⟨up, hup⟩ := upLoop_exists (ratio := (10 : ℝ) ^ (1 / (g.bins : ℝ))) (emax := g.emax)
      (fun e => (g.emax - g.accumulation) / g.emax * e + g.accumulation)
      (Real.one_lt_rpow (by norm_num) (by positivity)) hg.emin
    by_cases hl : linstep > 0
    · obtain ⟨down, hdown⟩ := downLoop_exists hl g.accumulation
      exact ⟨_, .mk up down hup (by rw [if_pos hl]; exact hdown)⟩
    · exact ⟨_, .mk up [] hup (by rw [if_neg hl])⟩
  · rintro b ⟨up, down, hup, hdown⟩
    refine ⟨?_, ?_, ?_, ?_⟩
    · rw [List.map_map]
      have : (Prod.fst ∘ fun e : ℝ => ((e, 0) : ℝ × ℂ)) = id := rfl
      rw [this, List.map_id]
      have := List.pairwise_mergeSort (le := fun x y : ℝ => by classical exact decide (x ≤ y))
        (fun a b c h1 h2 => by simp at h1 h2 ⊢; linarith) (fun a b => by simp; exact le_total a b)
        (up ++ down ++ [dblMin])
      simpa using this
    · simp [totalWeight, Function.comp_def]
    · have : 1 ≤ up.length := by
        cases hup with
        | stop _ h => exact absurd hg.lt.le h
        | step => simp
      simp; omega
    · simp

/-! ### `Bins::add` and the two signs of the energy -/

/-- **C31.** A peak is dropped only when its weight is below `discard_immediately`
times its energy; otherwise nothing is lost. -/
theorem addBins_total (g : Grid) (b : Spikes) (hb : b ≠ []) (hacc : g.accumulation ≤ 0) (energy : ℝ) (weight : ℂ) :
    (‖weight‖ < g.discardImmediately * energy → addBins g b energy weight = b) ∧
      (g.discardImmediately * energy ≤ ‖weight‖ →
        totalWeight (addBins g b energy weight) = totalWeight b + weight) := by
  constructor
  · intro h; exact if_pos h
  · intro h
    unfold addBins
    rw [if_neg (not_lt.mpr h), if_neg (not_lt.mpr hacc)]
    obtain ⟨i, r, hs⟩ := addStd_split g b hb energy weight
    exact hs.total

/-- **C31.** A peak at positive (or zero) energy changes only the positive half of
the spectrum, one at negative energy only the negative half, at the absolute value
of its energy; with no discarding the total weight grows by exactly its weight. -/
theorem chainAdd_spec (g : Grid) (c : Chain) (h1 : c.spos ≠ []) (h2 : c.sneg ≠ []) (hacc : g.accumulation ≤ 0)
    (hd : g.discardImmediately ≤ 0) (energy : ℝ) (weight : ℂ) :
    (c.add g energy weight).total = c.total + weight ∧
      (0 ≤ energy → (c.add g energy weight).sneg = c.sneg ∧ (c.add g energy weight).spos = addStd g c.spos |energy| weight) ∧
      (energy < 0 → (c.add g energy weight).spos = c.spos ∧ (c.add g energy weight).sneg = addStd g c.sneg |energy| weight) := by
  have key : ∀ (b : Spikes) (e : ℝ), 0 ≤ e → addBins g b e weight = addStd g b e weight := by
    intro b e he
    unfold addBins
    rw [if_neg (not_lt.mpr (le_trans (mul_nonpos_of_nonpos_of_nonneg hd he) (norm_nonneg _))),
      if_neg (not_lt.mpr hacc)]
  by_cases he : 0 ≤ energy
  · have : c.add g energy weight = { c with spos := addStd g c.spos energy weight } := by
      unfold Chain.add; rw [if_pos he, key _ _ he]
    rw [this]
    obtain ⟨i, r, hs⟩ := addStd_split g c.spos h1 energy weight
    refine ⟨by simp only [Chain.total, hs.total]; ring, fun _ => ⟨rfl, by rw [abs_of_nonneg he]⟩, fun h => absurd he (not_le.mpr h)⟩
  · have hneg := not_le.mp he
    have : c.add g energy weight = { c with sneg := addStd g c.sneg (-energy) weight } := by
      unfold Chain.add; rw [if_neg (by simpa using hneg), key _ _ (by linarith)]
    rw [this]
    obtain ⟨i, r, hs⟩ := addStd_split g c.sneg h2 (-energy) weight
    refine ⟨by simp only [Chain.total, hs.total]; ring, fun h => absurd h he, fun _ => ⟨rfl, by rw [abs_of_neg hneg]⟩⟩

/-! ### Merging -/

/-- **C32.** Merging succeeds exactly when the two sets of bins have the same
representative energies in the same order. -/
theorem mergeBins_isSome (a b : Spikes) : (mergeBins a b).isSome ↔ a.map Prod.fst = b.map Prod.fst := by
  induction a generalizing b with
  | nil => cases b <;> simp [mergeBins]
  | cons p a ih =>
    cases b with
    | nil => simp [mergeBins]
    | cons q b =>
      simp only [mergeBins]
      by_cases h : p.1 = q.1
      · simp [h, ih]
      · simp [h]

/-- **C32.** A merge keeps the energies and adds the weights bin by bin; in
particular the total weights add up. -/
theorem mergeBins_spec (a b c : Spikes) (h : mergeBins a b = some c) :
    c.map Prod.fst = a.map Prod.fst ∧
      c.map Prod.snd = List.zipWith (· + ·) (a.map Prod.snd) (b.map Prod.snd) ∧
      totalWeight c = totalWeight a + totalWeight b := by
  induction a generalizing b c with
  | nil => cases b with
    | nil => simp [mergeBins] at h; subst h; simp [totalWeight]
    | cons => simp [mergeBins] at h
  | cons p a ih =>
    cases b with
    | nil => simp [mergeBins] at h
    | cons q b =>
      simp only [mergeBins] at h
      split at h
      · obtain ⟨d, hd, rfl⟩ := Option.map_eq_some_iff.mp h
        obtain ⟨h1, h2, h3⟩ := ih b d hd
        refine ⟨by simp [h1], by simp [h2], ?_⟩
        simp only [totalWeight, List.map_cons, List.sum_cons] at h3 ⊢
        rw [h3]; ring
      · cases h

theorem spikes_ext (a b : Spikes) (h1 : a.map Prod.fst = b.map Prod.fst) (h2 : a.map Prod.snd = b.map Prod.snd) :
    a = b := by
  induction a generalizing b with
  | nil => simpa using h1.symm
  | cons p a ih =>
    cases b with
    | nil => simp at h1
    | cons q b =>
      simp only [List.map_cons, List.cons.injEq] at h1 h2
      rw [ih b h1.2 h2.2, Prod.ext h1.1 h2.1]

/-- **C32.** The order in which two sets of bins are merged does not matter. -/
theorem mergeBins_comm (a b : Spikes) : mergeBins a b = mergeBins b a := by
  induction a generalizing b with
  | nil => cases b <;> simp [mergeBins]
  | cons p a ih =>
    cases b with
    | nil => simp [mergeBins]
    | cons q b =>
      simp only [mergeBins, ih b]
      by_cases h : p.1 = q.1
      · rw [if_pos h, if_pos h.symm, h, add_comm]
      · rw [if_neg h, if_neg (Ne.symm h)]

/-- **C32.** Merging is associative. -/
theorem mergeBins_assoc (a b c : Spikes) :
    (mergeBins a b).bind (mergeBins · c) = (mergeBins b c).bind (mergeBins a ·) := by
  induction a generalizing b c with
  | nil =>
    cases b with
    | nil => cases c <;> simp [mergeBins]
    | cons q b =>
      cases c with
      | nil => simp [mergeBins]
      | cons r c =>
        simp only [mergeBins]
        split
        · cases mergeBins b c <;> simp [mergeBins]
        · rfl
  | cons p a ih =>
    cases b with
    | nil => cases c <;> simp [mergeBins]
    | cons q b =>
      cases c with
      | nil =>
        simp only [mergeBins]
        split
        · cases mergeBins a b <;> simp [mergeBins]
        · rfl
      | cons r c =>
        simp only [mergeBins]
        have := ih b c
        by_cases h1 : p.1 = q.1 <;> by_cases h2 : q.1 = r.1
        · rw [if_pos h1, if_pos h2]
          cases hab : mergeBins a b with
          | none =>
            rw [hab] at this
            cases hbc : mergeBins b c with
            | none => simp
            | some d => rw [hbc] at this; simp only [Option.bind_none, Option.bind_some] at this
                        simp [mergeBins, h1, ← this]
          | some d =>
            rw [hab] at this
            cases hbc : mergeBins b c with
            | none => rw [hbc] at this; simp only [Option.bind_none, Option.bind_some] at this
                      simp [mergeBins, h1, h2, this]
            | some e => rw [hbc] at this; simp only [Option.bind_some] at this
                        simp [mergeBins, h1, h2, this, add_assoc]
        · rw [if_pos h1, if_neg h2]
          cases mergeBins a b with
          | none => simp
          | some d => simp [mergeBins, h1, h2]
        · rw [if_neg h1, if_pos h2]
          cases mergeBins b c with
          | none => simp
          | some d => simp [mergeBins, h1]
        · rw [if_neg h1, if_neg h2]
          simp

/-- **C32.** Binning the contributions of two Wilson-chain shells separately and
merging gives the same bins as binning all of them together. -/
theorem merge_of_addAt (a b c : Spikes) (i : ℕ) (w : ℂ) (h : mergeBins a b = some c) :
    mergeBins a (addAt b i w) = some (addAt c i w) := by
  induction a generalizing b c i with
  | nil =>
    cases b with
    | nil => simp [mergeBins] at h; subst h; simp [addAt, mergeBins]
    | cons => simp [mergeBins] at h
  | cons p a ih =>
    cases b with
    | nil => simp [mergeBins] at h
    | cons q b =>
      simp only [mergeBins] at h
      split at h
      · rename_i heq
        obtain ⟨d, hd, rfl⟩ := Option.map_eq_some_iff.mp h
        cases i with
        | zero => simp [addAt, mergeBins, heq, hd, add_assoc]
        | succ i =>
          have := ih b d i hd
          simp only [addAt] at this
          simp [addAt, mergeBins, heq, this]
      · cases h

theorem merge_of_addStd (g : Grid) (a b c : Spikes) (h : mergeBins a b = some c) (e : ℝ) (w : ℂ) :
    mergeBins a (addStd g b e w) = some (addStd g c e w) := by
  have hl : b.length = c.length := by
    have h1 := (mergeBins_spec a b c h).1
    have h2 := (mergeBins_isSome a b).mp (by rw [h]; rfl)
    have := congrArg List.length (h2.symm.trans h1.symm)
    simpa using this
  unfold addStd
  dsimp only
  rw [hl]
  split
  · exact merge_of_addAt _ _ _ _ _ h
  · split
    · exact merge_of_addAt _ _ _ _ _ h
    · split
      · exact merge_of_addAt _ _ _ _ _ h
      · exact merge_of_addAt _ _ _ _ _ (merge_of_addAt _ _ _ _ _ h)

theorem merge_zero (a : Spikes) : mergeBins a (a.map fun p => (p.1, 0)) = some a := by
  induction a with
  | nil => simp [mergeBins]
  | cons p a ih => simp [mergeBins, ih]

/-- **C32.** The bins after two shells: binning the peaks `l2` of the second shell
on an empty grid and merging into the bins `b` of the first equals adding the peaks
of the second shell directly. -/
theorem merge_of_binned (g : Grid) (b : Spikes) (l2 : List (ℝ × ℂ)) :
    mergeBins b (l2.foldl (fun b p => addStd g b p.1 p.2) (b.map fun p => (p.1, 0)))
      = some (l2.foldl (fun b p => addStd g b p.1 p.2) b) := by
  have key : ∀ (l : List (ℝ × ℂ)) (x y : Spikes), mergeBins b x = some y →
      mergeBins b (l.foldl (fun b p => addStd g b p.1 p.2) x) = some (l.foldl (fun b p => addStd g b p.1 p.2) y) := by
    intro l
    induction l with
    | nil => intro x y h; exact h
    | cons p l ih => intro x y h; exact ih _ _ (merge_of_addStd g b x y h p.1 p.2)
  exact key l2 _ _ (merge_zero b)

/-- **C32.** `mergeCFS` merges the halves separately; the total weights add up. -/
theorem mergeCFS_total (full cs c : Chain) (h : mergeCFS full cs = some c) : c.total = full.total + cs.total := by
  simp only [mergeCFS, Option.bind_eq_bind, Option.bind_eq_some_iff, Option.pure_def, Option.some.injEq] at h
  obtain ⟨p, hp, n, hn, rfl⟩ := h
  simp only [Chain.total, (mergeBins_spec _ _ _ hp).2.2, (mergeBins_spec _ _ _ hn).2.2]
  ring

/-! ### Trimming -/

/-- **C32.** Trimming sorted bins always succeeds, keeps a subset of the bins in
their order with their weights unchanged, always keeps the last one, and drops a
bin only if its weight is below `discard_trim` times the distance to the next. -/
theorem trimBins_spec (dt : ℝ) (b : Spikes) (hb : b ≠ []) (hs : (b.map Prod.fst).Pairwise (· ≤ ·)) :
    ∃ c, trimBins dt b = some c ∧ c.Sublist b ∧ c.getLast? = b.getLast? ∧
      (∀ i p q, b[i]? = some p → b[i + 1]? = some q → dt * (q.1 - p.1) ≤ ‖p.2‖ → p ∈ c) ∧
      ∀ x ∈ c, b.getLast? = some x ∨ ∃ i q, b[i]? = some x ∧ b[i + 1]? = some q ∧ dt * (q.1 - x.1) ≤ ‖x.2‖ := by
  induction b with
  | nil => exact absurd rfl hb
  | cons p b ih =>
    cases b with
    | nil =>
      refine ⟨[p], rfl, List.Sublist.refl _, rfl, ?_, ?_⟩
      · intro i p' q h1 h2; simp at h2
      · intro x hx; left; simp only [List.mem_singleton] at hx; rw [hx]; rfl
    | cons q rest =>
      obtain ⟨c, hc, h1, h2, h3, h4⟩ := ih (by simp) (List.Pairwise.of_cons hs)
      have hpq : q.1 ≥ p.1 := by
        simp only [List.map_cons, List.pairwise_cons] at hs
        exact hs.1 q.1 (by simp)
      simp only [trimBins, if_pos hpq, hc, Option.map_some]
      have hlast : ∀ x, c.getLast? = some x → (p :: c).getLast? = some x := by
        intro x hx
        cases c with
        | nil => simp at hx
        | cons y c => simpa using hx
      by_cases hw : ‖p.2‖ ≥ dt * (q.1 - p.1)
      · refine ⟨p :: c, by rw [if_pos hw], h1.cons_cons p, ?_, ?_, ?_⟩
        · rw [List.getLast?_cons_cons, ← h2]
          cases hl : c.getLast? with
          | none => exact absurd (hl.symm.trans h2).symm (by simp)
          | some x => exact hlast x hl
        · intro i p' q' h5 h6 h7
          cases i with
          | zero => simp at h5; subst h5; simp
          | succ i => exact List.mem_cons_of_mem _ (h3 i p' q' h5 h6 h7)
        · intro x hx
          rcases List.mem_cons.mp hx with rfl | hx
          · exact Or.inr ⟨0, q, rfl, rfl, hw⟩
          · rcases h4 x hx with h5 | ⟨i, q', h5, h6, h7⟩
            · left; rw [List.getLast?_cons_cons]; exact h5
            · exact Or.inr ⟨i + 1, q', h5, h6, h7⟩
      · refine ⟨c, by rw [if_neg hw], h1.cons p, ?_, ?_, ?_⟩
        · rw [List.getLast?_cons_cons, ← h2]
        · intro i p' q' h5 h6 h7
          cases i with
          | zero => simp at h5 h6; subst h5; subst h6; exact absurd h7 hw
          | succ i => exact h3 i p' q' h5 h6 h7
        · intro x hx
          rcases h4 x hx with h5 | ⟨i, q', h5, h6, h7⟩
          · left; rw [List.getLast?_cons_cons]; exact h5
          · exact Or.inr ⟨i + 1, q', h5, h6, h7⟩

/-- **C32.** What trimming loses is bounded: the sum of the absolute weights lost is
at most `discard_trim` times the range of the energies. -/
theorem trimBins_loss (dt : ℝ) (hdt : 0 ≤ dt) (b : Spikes) (lo hi : ℝ × ℂ) (hlo : b.head? = some lo)
    (hhi : b.getLast? = some hi) (c : Spikes) (h : trimBins dt b = some c) :
    ‖totalWeight b - totalWeight c‖ ≤ dt * (hi.1 - lo.1) := by
  induction b generalizing lo c with
  | nil => simp at hlo
  | cons p b ih =>
    simp only [List.head?_cons, Option.some.injEq] at hlo
    subst hlo
    cases b with
    | nil =>
      simp only [trimBins, Option.some.injEq] at h
      simp at hhi
      subst h; subst hhi
      simp
    | cons q rest =>
      simp only [trimBins] at h
      split at h
      · rename_i hpq
        obtain ⟨d, hd, rfl⟩ := Option.map_eq_some_iff.mp h
        have h5 := ih q rfl (by simpa using hhi) d hd
        have hnn : 0 ≤ dt * (q.1 - p.1) := mul_nonneg hdt (by linarith)
        split
        · have : totalWeight (p :: q :: rest) - totalWeight (p :: d) = totalWeight (q :: rest) - totalWeight d := by
            simp only [totalWeight, List.map_cons, List.sum_cons]; ring
          rw [this]
          nlinarith
        · rename_i hw
          have : totalWeight (p :: q :: rest) - totalWeight d = p.2 + (totalWeight (q :: rest) - totalWeight d) := by
            simp only [totalWeight, List.map_cons, List.sum_cons]; ring
          rw [this]
          have h6 := norm_add_le p.2 (totalWeight (q :: rest) - totalWeight d)
          push Not at hw
          nlinarith
      · cases h

/-! ### Non-vacuity -/

/-- A grid of two bins per decade from 0.01 to 100. -/
noncomputable def exGrid : Grid := ⟨2, 1 / 100, 100, -2, 2, 0, 0, 0⟩

example : GoodGrid exGrid where
  bins := by decide
  emin := by norm_num [exGrid]
  lo := by
    have : (1 / 100 : ℝ) = (10 : ℝ) ^ (-2 : ℝ) := by rw [Real.rpow_neg (by norm_num)]; norm_num
    simp only [exGrid]
    rw [this, Real.logb_rpow (by norm_num) (by norm_num)]; norm_num
  hi := by
    have : (100 : ℝ) = (10 : ℝ) ^ (2 : ℝ) := by norm_num
    simp only [exGrid]
    rw [this, Real.logb_rpow (by norm_num) (by norm_num)]; norm_num
  lt := by norm_num [exGrid]
  limits := by decide

example : (loggridStd exGrid).length = 9 := by simp [loggridStd, nrBins, exGrid]

example : mergeBins [(1, 2), (3, 4)] [(1, 10), (3, 20)] = some [(1, 12), (3, 24)] := by norm_num [mergeBins]
example : mergeBins [(1, 2), (3, 4)] [(1, 10), (4, 20)] = none := by norm_num [mergeBins]
example : trimBins 1 [(1, 2), (3, 1), (5, 0)] = some [(1, 2), (5, 0)] := by
  norm_num [trimBins]
example : addAcc [(1, 0), (3, 0), (5, 0)] 4 (2 : ℂ) = [(1, 0), (3, 1), (5, 1)] := by
  norm_num [addAcc]

end Verif.Spectral
