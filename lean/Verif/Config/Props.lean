import Verif.Config.Lemmas
/-!
# C20-C23, C49, C68: switches, coefficient tables, scales, steps, stages
-/

namespace Verif.Config

/-! ## C20: switches -/

/-- Every algorithm that is set up for the second sweep turns the second sweep on
and has the density matrix it reads marked for preparation. -/
theorem second_sweep_on (s : Sw) (a : Algo) (h : enabled s .dmnrg a = true) :
    s.validate.dm = true ∧
    (a.rho = some .rho → s.validate.needRho = true) ∧
    (a.rho = some .rhoFDM → s.validate.needRhoFDM = true) := by
  have hv : s.validate.needRho = s.needRho ∧ s.validate.needRhoFDM = s.needRhoFDM := by
    unfold Sw.validate
    split <;> exact ⟨rfl, rfl⟩
  rw [hv.1, hv.2]
  have hd : s.dmFlags = true → s.validate.dm = true := by
    intro h; unfold Sw.validate; rw [if_pos h]
  cases a <;> simp only [enabled, Bool.false_eq_true] at h <;>
    refine ⟨hd ?_, ?_, ?_⟩ <;>
    simp [Sw.dmFlags, Sw.cfsFlags, Sw.fdmFlags, Sw.dmnrgFlags, h, Algo.rho, Sw.needRho, Sw.needRhoFDM]

/-- The second sweep runs exactly if it was asked for directly or some algorithm
(or the full-density-matrix expectation values) needs it. -/
theorem second_sweep_iff (s : Sw) :
    s.validate.dm = true ↔ s.dm = true ∨ s.fdmexpv = true ∨ ∃ a, enabled s .dmnrg a = true := by
  constructor
  · intro h
    unfold Sw.validate at h
    split at h
    · rename_i hf
      simp only [Sw.dmFlags, Sw.cfsFlags, Sw.fdmFlags, Sw.dmnrgFlags, Bool.or_eq_true] at hf
      rcases hf with ((((h | h) | h) | ((((h | h) | h) | h) | h)) | (h | h))
      · exact .inr (.inr ⟨.CFS, h⟩)
      · exact .inr (.inr ⟨.CFSgt, h⟩)
      · exact .inr (.inr ⟨.CFSls, h⟩)
      · exact .inr (.inr ⟨.FDM, h⟩)
      · exact .inr (.inr ⟨.FDMgt, h⟩)
      · exact .inr (.inr ⟨.FDMls, h⟩)
      · exact .inr (.inr ⟨.FDMmats, h⟩)
      · exact .inr (.inl h)
      · exact .inr (.inr ⟨.DMNRG, h⟩)
      · exact .inr (.inr ⟨.DMNRGmats, h⟩)
    · exact .inl h
  · rintro (h | h | ⟨a, h⟩)
    · unfold Sw.validate
      split
      · rfl
      · exact h
    · unfold Sw.validate
      rw [if_pos (by simp [Sw.dmFlags, Sw.fdmFlags, h])]
    · exact (second_sweep_on s a h).1

/-- Exactly one of the two recalculation modes is active in each sweep. -/
theorem recalc_exclusive (s : Sw) (r : Run) :
    (s.recalcAll r = true ∧ s.recalcKept r = false) ∨ (s.recalcAll r = false ∧ s.recalcKept r = true) := by
  unfold Sw.recalcAll
  cases s.recalcKept r <;> simp

/-- Algorithms that use the discarded states see all states: the second sweep
recalculates for all of them, and unless explicitly overridden, all states of
the last step are retained. -/
theorem complete_basis_algorithms (s : Sw) (a : Algo) (h : enabled s .dmnrg a = true)
    (hd : a.usesDiscarded = true) :
    s.validate.recalcAll .dmnrg = true ∧
    (s.lastalloverride = false → s.validate.keepAllLast = true) := by
  have hf : s.cfsOrFdmFlags = true := by
    cases a <;> simp [enabled, Algo.usesDiscarded] at h hd <;>
      simp [Sw.cfsOrFdmFlags, Sw.cfsFlags, Sw.fdmFlags, h]
  have hv : s.validate.cfsOrFdmFlags = true ∧ s.validate.lastalloverride = s.lastalloverride := by
    unfold Sw.validate
    split <;> exact ⟨hf, rfl⟩
  refine ⟨?_, ?_⟩
  · simp [Sw.recalcAll, Sw.recalcKept, hv.1]
  · intro hl
    simp [Sw.keepAllLast, hv, hl]

/-- All states of the last step are retained in exactly two cases: on request, or for an
algorithm that uses the discarded states, unless overridden. -/
theorem keepAllLast_iff (s : Sw) : s.keepAllLast = true ↔
    s.lastall = true ∨ (s.lastalloverride = false ∧
      (s.cfs = true ∨ s.cfsgt = true ∨ s.cfsls = true ∨ s.fdm = true ∨ s.fdmgt = true ∨
        s.fdmls = true ∨ s.fdmmats = true ∨ s.fdmexpv = true)) := by
  simp [Sw.keepAllLast, Sw.cfsOrFdmFlags, Sw.cfsFlags, Sw.fdmFlags, or_assoc, and_comm]

/-- The requested calculations, with everything else at its default
(`c++/params.hpp`): `strategy=kept`, `done`, `calc0` and `removefiles` on. -/
def Sw.default : Sw where
  finite := false
  finitemats := false
  dmnrg := false
  dmnrgmats := false
  cfs := false
  cfsgt := false
  cfsls := false
  fdm := false
  fdmgt := false
  fdmls := false
  fdmmats := false
  fdmexpv := false
  dm := false
  lastall := false
  lastalloverride := false
  keptStrategy := true
  done := true
  removefiles := true
  calc0 := true

example : enabled { Sw.default with fdm := true } .dmnrg .FDM = true ∧
    { Sw.default with fdm := true }.validate.dm = true ∧
    { Sw.default with fdm := true }.validate.recalcKept .nrg = true ∧
    { Sw.default with fdm := true }.validate.recalcKept .dmnrg = false := by decide

/-! ## C21: coefficient tables -/

/-- Different (channel, spin part) pairs address different columns, all inside
the declared number of columns. -/
theorem columns_distinct (pol2x2 polarized : Bool) (channels ch ch' : Nat) (p p' : SpinPart)
    (hch : ch < channels) (hch' : ch' < channels)
    (hp : p ∈ spinParts pol2x2 polarized) (hp' : p' ∈ spinParts pol2x2 polarized) :
    column channels ch p < coefChannels pol2x2 polarized channels ∧
    (column channels ch p = column channels ch' p' → ch = ch' ∧ p = p') := by
  cases pol2x2 <;> cases polarized <;> simp [spinParts] at hp hp' <;>
    (rcases hp with rfl | rfl | rfl | rfl <;> rcases hp' with rfl | rfl | rfl | rfl <;>
      simp [column, coefChannels, coefFactor] <;> omega)

/-- Every column is addressed by some pair, so no stored coefficient is unused. -/
theorem columns_onto (pol2x2 polarized : Bool) (channels c : Nat)
    (hc : c < coefChannels pol2x2 polarized channels) :
    ∃ ch, ch < channels ∧ ∃ p ∈ spinParts pol2x2 polarized, column channels ch p = c := by
  cases pol2x2 <;> cases polarized <;> simp [coefChannels, coefFactor] at hc
  · exact ⟨c, hc, .up, by simp [spinParts], rfl⟩
  · by_cases h : c < channels
    · exact ⟨c, h, .up, by simp [spinParts], rfl⟩
    · exact ⟨c - channels, by omega, .down, by simp [spinParts], by simp [column]; omega⟩
  all_goals
    by_cases h : c < channels
    · exact ⟨c, h, .up, by simp [spinParts], rfl⟩
    by_cases h1 : c < 2 * channels
    · exact ⟨c - channels, by omega, .down, by simp [spinParts], by simp [column]; omega⟩
    by_cases h2 : c < 3 * channels
    · exact ⟨c - 2 * channels, by omega, .updo, by simp [spinParts], by simp [column]; omega⟩
    · exact ⟨c - 3 * channels, by omega, .doup, by simp [spinParts], by simp [column]; omega⟩

/-- Reading outside the tables is reported, reading inside gives the entry. -/
theorem tables_read {K : Type} (tabs : List (List K)) (n alpha : Nat) :
    (tablesAt tabs n alpha = none ↔ tabs.length ≤ alpha ∨ ∃ t, tabs[alpha]? = some t ∧ t.length ≤ n) ∧
    (∀ v, tablesAt tabs n alpha = some v ↔ ∃ t, tabs[alpha]? = some t ∧ t[n]? = some v) := by
  unfold tablesAt coefAt
  constructor
  · cases h : tabs[alpha]? with
    | none => simp [List.getElem?_eq_none_iff.1 h]
    | some t =>
      have : ¬ tabs.length ≤ alpha := by
        have := (List.getElem?_eq_some_iff.1 h).1; omega
      simp [this]
  · intro v
    cases h : tabs[alpha]? with
    | none => simp
    | some t => simp

/-- Storing a coefficient changes that coefficient only: it can be read back,
other coefficients keep their values, and a gap that opens up reads as zero. -/
theorem tables_set {K : Type} [Zero K] (tabs tabs' : List (List K)) (n alpha : Nat) (v : K)
    (h : tablesSet tabs n alpha v = some tabs') :
    tablesAt tabs' n alpha = some v ∧
    (∀ n' alpha' w, (n', alpha') ≠ (n, alpha) → tablesAt tabs n' alpha' = some w → tablesAt tabs' n' alpha' = some w) ∧
    tabs'.length = tabs.length := by
  unfold tablesSet at h
  cases ht : tabs[alpha]? with
  | none => rw [ht] at h; cases h
  | some t =>
    rw [ht] at h
    simp only [Option.map_some, Option.some.injEq] at h
    subst h
    obtain ⟨hl, -⟩ := List.getElem?_eq_some_iff.1 ht
    refine ⟨?_, ?_, by simp⟩
    · unfold tablesAt coefAt coefSet
      rw [List.getElem?_set_self hl]
      simp only [Option.bind_some]
      rw [List.getElem?_set_self (by simp; omega)]
    · intro n' alpha' w hne hw
      unfold tablesAt at hw ⊢
      by_cases ha : alpha' = alpha
      · subst ha
        rw [List.getElem?_set_self hl]
        rw [ht] at hw
        simp only [Option.bind_some, coefAt, coefSet] at hw ⊢
        have hn : n ≠ n' := fun e => hne (by rw [e])
        rw [List.getElem?_set_ne hn]
        rw [List.getElem?_append_left (List.getElem?_eq_some_iff.1 hw).1]
        exact hw
      · rw [List.getElem?_set_ne (fun e => ha e.symm)]
        exact hw

example : column 2 1 .doup = 7 ∧ coefChannels true false 2 = 8 := by decide
example : tablesSet [[1, 2], [3]] 3 1 (9 : Int) = some [[1, 2], [3, 0, 0, 9]] ∧
    tablesAt [[1, 2], [3, 0, 0, 9]] 3 1 = some (9 : Int) ∧ tablesAt [[1, 2], [(3 : Int)]] 1 1 = none := by decide

/-! ## C22: energy scales -/

/-- Parameters accepted by validation (`c++/params.hpp:563, 627`); the band width
rescaling factor is positive. -/
structure ScaleP.Valid (p : ScaleP) : Prop where
  lambda : 1 < p.Lambda
  channels : 1 ≤ p.channels
  band : 0 < p.bandrescale

theorem pref_pos (p : ScaleP) (h : p.Valid) : 0 < p.pref := by
  have hl := h.lambda
  have h0 : 0 < p.Lambda := by linarith
  unfold ScaleP.pref
  split
  · have h1 : 1 / p.Lambda < 1 := by rw [div_lt_one h0]; exact hl
    exact div_pos (by linarith) (Real.log_pos hl)
  · have : 0 < 1 / p.Lambda := by positivity
    norm_num
    have : 0 < p.Lambda⁻¹ := by positivity
    linarith

/-- All scales are positive. -/
theorem scale_pos (p : ScaleP) (h : p.Valid) (N : Int) : 0 < p.SCALE N := by
  have h0 : 0 < p.Lambda := by have := h.lambda; linarith
  have hp := pref_pos p h
  unfold ScaleP.SCALE
  split <;> exact mul_pos (mul_pos hp (Real.rpow_pos_of_pos h0 _)) h.band

/-- The step factor exceeds one. -/
theorem stepFactor_gt_one (p : ScaleP) (h : p.Valid) (ha : p.absolute = false) : 1 < p.stepFactor := by
  have hl := h.lambda
  unfold ScaleP.stepFactor
  rw [if_neg (by simp [ha])]
  split
  · apply Real.one_lt_rpow hl
    have : (0 : ℝ) < p.channels := by exact_mod_cast h.channels
    positivity
  · rw [Real.lt_sqrt (by norm_num)]
    linarith

/-- The scales form a geometric sequence whose ratio is the factor by which the
Hamiltonian is rescaled from step to step, with and without substeps. -/
theorem scale_geometric (p : ScaleP) (h : p.Valid) (ha : p.absolute = false) (N : Int) :
    p.SCALE N = p.stepFactor * p.SCALE (N + 1) := by
  have h0 : 0 < p.Lambda := by have := h.lambda; linarith
  have hc : (p.channels : ℝ) ≠ 0 := by have := h.channels; positivity
  unfold ScaleP.SCALE ScaleP.stepFactor
  rw [if_neg (by simp [ha] : ¬ p.absolute = true)]
  cases p.substeps
  · simp only [Bool.false_eq_true, if_false]
    rw [Real.sqrt_eq_rpow]
    have : -((N : ℝ) - 1) / 2 + 1 - p.z = 1 / 2 + (-(((N + 1 : Int) : ℝ) - 1) / 2 + 1 - p.z) := by
      push_cast; ring
    rw [this, Real.rpow_add h0]
    ring
  · simp only [if_true]
    have : -(N : ℝ) / (2 * p.channels) + 3 / 2 - p.z =
        0.5 / (p.channels : ℝ) + (-((N + 1 : Int) : ℝ) / (2 * p.channels) + 3 / 2 - p.z) := by
      push_cast; field_simp; ring
    rw [this, Real.rpow_add h0]
    ring

/-- Scales decrease strictly. -/
theorem scale_decreasing (p : ScaleP) (h : p.Valid) (N : Int) : p.SCALE (N + 1) < p.SCALE N := by
  have hp : ({ p with absolute := false } : ScaleP).Valid := ⟨h.lambda, h.channels, h.band⟩
  have h1 := scale_geometric { p with absolute := false } hp rfl N
  have h2 := stepFactor_gt_one { p with absolute := false } hp rfl
  have h3 := scale_pos { p with absolute := false } hp (N + 1)
  change 0 < p.SCALE (N + 1) at h3
  change p.SCALE N = _ * p.SCALE (N + 1) at h1
  nlinarith

/-- Closed form: the scale of step `N + k` is the scale of step `N` divided by the
`k`-th power of the factor. -/
theorem scale_closed_form (p : ScaleP) (h : p.Valid) (ha : p.absolute = false) (N : Int) (k : Nat) :
    p.SCALE N = p.stepFactor ^ k * p.SCALE (N + k) := by
  induction k with
  | zero => simp
  | succ k ih =>
    rw [ih, scale_geometric p h ha (N + k), pow_succ]
    push_cast
    rw [add_assoc]
    ring

/-- With substeps, the `channels` substeps that add one site to every channel
lower the scale exactly as much as one full step does. -/
theorem substeps_per_site (p : ScaleP) (h : p.Valid) (ha : p.absolute = false) (hs : p.substeps = true) (N : Int) :
    p.SCALE N = Real.sqrt p.Lambda * p.SCALE (N + p.channels) := by
  rw [scale_closed_form p h ha N p.channels]
  congr 1
  have h0 : 0 < p.Lambda := by have := h.lambda; linarith
  have hc : (p.channels : ℝ) ≠ 0 := by have := h.channels; positivity
  unfold ScaleP.stepFactor
  rw [if_neg (by simp [ha]), if_pos hs, Real.sqrt_eq_rpow, ← Real.rpow_natCast, ← Real.rpow_mul h0.le]
  congr 1
  field_simp
  norm_num

/-- Lowering the twist parameter by one is the same as going back two sites: the
interleaved meshes fit together without a gap. -/
theorem twist_period (p : ScaleP) (h : p.Valid) (hs : p.substeps = false) (N : Int) :
    ({ p with z := p.z + 1 } : ScaleP).SCALE N = p.SCALE (N + 2) := by
  have h0 : 0 < p.Lambda := by have := h.lambda; linarith
  unfold ScaleP.SCALE ScaleP.pref
  simp only [hs, Bool.false_eq_true, if_false]
  congr 3
  push_cast; ring

/-- Whether or not energies are stored in absolute units, the scale used in the
calculation times the factor that converts to the running scale is the energy scale of
the step, and converting an energy to units of the step and back is the identity. -/
theorem scale_unscale (p : ScaleP) (h : p.Valid) (s : StepS) (e : ℝ) :
    p.scale s * p.unscale s = p.SCALE (s.trueN + 1) ∧ e / p.scale s * p.scale s = e := by
  have hpos : 0 < p.energyscale s := scale_pos p h _
  unfold ScaleP.scale ScaleP.unscale
  split
  · exact ⟨by rw [one_mul]; rfl, by simp⟩
  · exact ⟨by rw [mul_one]; rfl, by field_simp⟩

example : (⟨2, 1, 1, 2, true, true, false⟩ : ScaleP).Valid := ⟨by norm_num, by norm_num, by norm_num⟩

/-! ## C23: steps -/

/-- The loop visits `Ninit, …, Nmax-1`, each once and in order, with the energy
scale counter equal to the index; the first and last step are recognised exactly
at the ends. -/
theorem visits_every_step (ninit nmax : Nat) (h : ninit < nmax) :
    (visited ninit nmax).map (·.ndx) = List.range' ninit (nmax - ninit) ∧
    (∀ st ∈ visited ninit nmax, st.trueN = st.ndx ∧ ninit ≤ st.ndx ∧ st.ndx < nmax) ∧
    (∀ (i : Nat) (st : StepS), (visited ninit nmax)[i]? = some st →
      (st.first ninit = true ↔ i = 0) ∧ (st.last nmax = true ↔ i + 1 = (visited ninit nmax).length)) := by
  rw [visited_eq]
  refine ⟨by simp [List.map_map, Function.comp_def], ?_, ?_⟩
  · intro st hst
    obtain ⟨k, hk, rfl⟩ := List.mem_map.1 hst
    have := List.mem_range'_1.1 hk
    exact ⟨rfl, this.1, by have := this.2; dsimp only; omega⟩
  · intro i st hst
    rw [List.getElem?_map] at hst
    by_cases hi : i < nmax - ninit
    · rw [List.getElem?_range' hi] at hst
      simp only [Option.map_some, Option.some.injEq] at hst
      subst hst
      simp [StepS.first, StepS.last]
      omega
    · rw [List.getElem?_eq_none (by simpa using hi)] at hst
      cases hst

/-- The decomposition of the index into site and channel is a bijection. -/
theorem site_channel_bijection (channels : Nat) (h : 1 ≤ channels) :
    (∀ n, (NM channels n).2 < channels ∧ (NM channels n).1 * channels + (NM channels n).2 = n) ∧
    (∀ N M, M < channels → NM channels (N * channels + M) = (N, M)) := by
  constructor
  · intro n
    unfold NM
    have h1 : n / channels * channels ≤ n := Nat.div_mul_le_self n channels
    have h2 := Nat.lt_div_mul_add h (a := n)
    exact ⟨by dsimp only; omega, by dsimp only; omega⟩
  · intro N M hM
    unfold NM
    have : (N * channels + M) / channels = N := by
      rw [Nat.mul_comm, Nat.mul_add_div (by omega), Nat.div_eq_of_lt hM, Nat.add_zero]
    rw [this]
    simp

/-- Before the first iteration of a calculation starting at 0 the scale counter
is `-1`, while the index stays usable. -/
theorem before_first : StepS.set (-1) = ⟨-1, 0⟩ := by decide

example : visited 1 4 = [⟨1, 1⟩, ⟨2, 2⟩, ⟨3, 3⟩] := by decide
example : (List.range 6).map (NM 2) = [(0, 0), (0, 1), (1, 0), (1, 1), (2, 0), (2, 1)] := by decide

/-! ## C68: stored files -/

/-- Without faults of its own, a run never fails for want of a stored file:
whatever the requested calculations and whatever files exist at the start, each
file that is read was written before and has not been removed since. With
removal on, nothing the second sweep reads remains; files of other steps are
never touched. -/
theorem files_available (s : Sw) (ninit nmax : Nat) (h : ninit < nmax) (fs : Files) :
    ∃ fs', exec (fun _ => false) 0 fs (program s.validate ninit nmax) = (program s.validate ninit nmax, some fs') ∧
      (s.removefiles = true → s.validate.dm = true → ∀ n, ninit ≤ n → n < nmax →
        fs' .unitary n = false ∧ (s.validate.needRho = true → fs' .rho n = false) ∧
        (s.validate.needRhoFDM = true → fs' .rhoFDM n = false)) ∧
      (∀ k n, ¬ (ninit ≤ n ∧ n < nmax) → fs' k n = fs k n) ∧
      (s.validate.dm = false → fs' = fs) := by
  have hrm : s.validate.removefiles = s.removefiles := by unfold Sw.validate; split <;> rfl
  generalize s.validate = v at hrm ⊢
  rw [← hrm]
  have hend : ∀ (f : Files), run f (if v.done then [Ev.done] else []) = some f := by
    intro f; split <;> simp [run, act]
  have hsum : ninit + (nmax - ninit) = nmax := by omega
  cases hd : v.dm
  · refine ⟨fs, exec_noFail _ _ _ _ ?_, ?_, ?_, fun _ => rfl⟩
    · unfold program
      rw [hd, List.cons_append, List.cons_append, run_neutral _ _ rfl, run_append, run_append, run_sweep_nrg, hd]
      simp only [Bool.false_eq_true, if_false, Option.bind_some, run, hend]
    · intro _ h; cases h
    · intros; rfl
  · -- with the second sweep
    let f1 := setFiles fs .unitary true (fun n => ninit ≤ n ∧ n < nmax)
    let f2 := if v.needRho then setFiles f1 .rho true (fun n => ninit ≤ n ∧ n < nmax) else f1
    let f3 := if v.needRhoFDM then setFiles f2 .rhoFDM true (fun n => ninit ≤ n ∧ n < nmax) else f2
    let f4 := swept v f3 (fun n => ninit ≤ n ∧ n < nmax)
    have hu1 : ∀ n, ninit ≤ n → n < nmax → f1 .unitary n = true := by
      intro n h1 h2; simp [f1, setFiles, h1, h2]
    have hu2 : ∀ n, ninit ≤ n → n < nmax → f2 .unitary n = true := by
      intro n h1 h2
      simp only [f2]
      split
      · simp [setFiles, hu1 n h1 h2]
      · exact hu1 n h1 h2
    have hr2 : run f1 (if v.needRho then prepareEv .rho ninit nmax else []) = some f2 := by
      simp only [f2]
      split
      · exact run_prepare _ (by decide) _ _ h _ hu1
      · rfl
    have hr3 : run f2 (if v.needRhoFDM then prepareEv .rhoFDM ninit nmax else []) = some f3 := by
      simp only [f3]
      split
      · exact run_prepare _ (by decide) _ _ h _ hu2
      · rfl
    have hall : ∀ k n, readKind v k = true → ninit ≤ n → n < nmax → f3 k n = true := by
      intro k n hk h1 h2
      cases k
      · simp only [f3]
        split
        · simp [setFiles, hu2 n h1 h2]
        · exact hu2 n h1 h2
      · simp only [readKind] at hk
        simp only [f3, f2, hk, if_true]
        split <;> simp [setFiles, h1, h2]
      · simp only [readKind] at hk
        simp only [f3, hk, if_true]
        simp [setFiles, h1, h2]
    refine ⟨f4, exec_noFail _ _ _ _ ?_, ?_, ?_, fun h => by cases h⟩
    · unfold program
      rw [hd, List.cons_append, List.cons_append, run_neutral _ _ rfl, run_append, run_append, run_sweep_nrg, hd, hsum]
      simp only [if_true, Option.bind_some]
      change (((run f1 _).bind _) = some f4)
      rw [run_append, run_append, hr2, Option.bind_some, hr3, Option.bind_some]
      have : run f3 (sweepEv v ninit nmax .dmnrg) = some f4 := by
        unfold sweepEv
        rw [flatMap_visited ninit nmax (fun n => stepEv v .dmnrg n), run_append, run_append]
        rw [if_neg (by simp)]
        simp only [run, Option.bind_some]
        rw [run_steps_dmnrg v _ _ _ (by rw [hsum]; exact hall), Option.bind_some]
        simp only [act, Option.bind_some, f4]
        congr 1
        funext k n
        simp only [swept, hsum]
      rw [this, Option.bind_some, hend]
    · intro hrf _ n h1 h2
      simp only [f4, swept]
      refine ⟨?_, ?_, ?_⟩
      · rw [if_pos ⟨hrf, rfl, h1, h2⟩]
      · intro hh; rw [if_pos ⟨hrf, hh, h1, h2⟩]
      · intro hh; rw [if_pos ⟨hrf, hh, h1, h2⟩]
    · intro k n hn
      simp only [f4, swept]
      rw [if_neg (fun h => hn h.2.2)]
      simp only [f3, f2, f1]
      split <;> split <;> simp [setFiles, hn]

/-- Consequently a run stops early only because one of its actions failed for a
reason of its own. -/
theorem stops_only_on_fault (s : Sw) (ninit nmax : Nat) (h : ninit < nmax) (fs : Files) (fails : Nat → Bool)
    (hn : (exec fails 0 fs (program s.validate ninit nmax)).2 = none) :
    fails (exec fails 0 fs (program s.validate ninit nmax)).1.length = true := by
  obtain ⟨fs', hok, -⟩ := files_available s ninit nmax h fs
  have gen : ∀ (p : List Ev) (i : Nat) (fs : Files), (exec (fun _ => false) i fs p).2.isSome →
      (exec fails i fs p).2 = none → fails (i + (exec fails i fs p).1.length) = true := by
    intro p
    induction p with
    | nil => intro i fs _ h; simp [exec] at h
    | cons e es ih =>
      intro i fs h1 h2
      unfold exec at h1 h2 ⊢
      by_cases hf : fails i = true
      · simp [hf]
      · rw [if_neg hf] at h2 ⊢
        rw [if_neg (by simp)] at h1
        cases ha : act fs e with
        | none => rw [ha] at h1; simp at h1
        | some f =>
          rw [ha] at h1 h2
          simp only at h1 h2 ⊢
          have := ih (i + 1) f h1 h2
          rw [List.length_cons]
          rw [show i + ((exec fails (i + 1) f es).1.length + 1) = i + 1 + (exec fails (i + 1) f es).1.length by omega]
          exact this
  have := gen _ 0 fs (by rw [hok]; rfl) hn
  simpa using this

example : ({ Sw.default with fdm := true } : Sw).validate.dm = true ∧
    (program ({ Sw.default with fdm := true } : Sw).validate 0 2) =
      [.setup, .calc0, .diagonalise 0, .save .unitary 0, .measure .nrg 0, .diagonalise 1, .save .unitary 1,
       .measure .nrg 1, .sweepEnd .nrg, .save .rhoFDM 1, .load .unitary 1, .save .rhoFDM 0,
       .load .unitary 0, .remove .unitary 0, .load .rhoFDM 0, .remove .rhoFDM 0, .measure .dmnrg 0,
       .load .unitary 1, .remove .unitary 1, .load .rhoFDM 1, .remove .rhoFDM 1, .measure .dmnrg 1,
       .sweepEnd .dmnrg, .done] := by decide

/-! ## C49: stages and the completion marker -/

/-- The documented order of the stages. Reading stored data belongs to several
stages and carries no rank. -/
def rank : Ev → Option Nat
  | .setup => some 0
  | .calc0 => some 1
  | .diagonalise _ | .measure .nrg _ | .save .unitary _ => some 2
  | .sweepEnd .nrg => some 3
  | .save .rho _ => some 4
  | .save .rhoFDM _ => some 5
  | .measure .dmnrg _ => some 6
  | .sweepEnd .dmnrg => some 7
  | .done => some 8
  | .load _ _ | .remove _ _ => none

/-- Stages run in the documented order. -/
def Ordered (l : List Ev) : Prop :=
  l.Pairwise fun a b => ∀ x y, rank a = some x → rank b = some y → x ≤ y

theorem ordered_const (c : Nat) (l : List Ev) (h : ∀ e ∈ l, ∀ x, rank e = some x → x = c) : Ordered l := by
  unfold Ordered
  rw [List.pairwise_iff_forall_sublist]
  intro a b hab x y hx hy
  have ha := h a (hab.subset (by simp)) x hx
  have hb := h b (hab.subset (by simp)) y hy
  omega

theorem ordered_append (c : Nat) (l m : List Ev) (hl : Ordered l) (hm : Ordered m)
    (h1 : ∀ e ∈ l, ∀ x, rank e = some x → x ≤ c) (h2 : ∀ e ∈ m, ∀ x, rank e = some x → c ≤ x) :
    Ordered (l ++ m) := by
  refine List.pairwise_append.2 ⟨hl, hm, ?_⟩
  intro a ha b hb x y hx hy
  exact le_trans (h1 a ha x hx) (h2 b hb y hy)

theorem rank_step_nrg (s : Sw) (n : Nat) : ∀ e ∈ stepEv s .nrg n, ∀ x, rank e = some x → x = 2 := by
  intro e he x hx
  unfold stepEv at he
  rw [List.append_assoc, recalc_one] at he
  simp only [measureEv, reduceCtorEq, if_false, List.nil_append, List.mem_append, List.mem_cons, List.not_mem_nil, or_false] at he
  rcases he with (rfl | he) | rfl
  · simp [rank] at hx; omega
  · split at he
    · simp at he; subst he; simp [rank] at hx; omega
    · simp at he
  · simp [rank] at hx; omega

theorem rank_load (rm : Bool) (k : Kind) (n : Nat) : ∀ e ∈ loadEv rm k n, rank e = none := by
  intro e he
  unfold loadEv at he
  cases rm
  · simp at he; subst he; rfl
  · simp at he; rcases he with rfl | rfl <;> rfl

theorem rank_step_dmnrg (s : Sw) (n : Nat) : ∀ e ∈ stepEv s .dmnrg n, ∀ x, rank e = some x → x = 6 := by
  intro e he x hx
  unfold stepEv at he
  rw [List.append_assoc, recalc_one] at he
  simp only [measureEv, if_true, List.mem_append, List.mem_cons, List.not_mem_nil, or_false] at he
  rcases he with he | ((he | he) | rfl)
  · rw [rank_load _ _ _ e he] at hx; cases hx
  · split at he
    · rw [rank_load _ _ _ e he] at hx; cases hx
    · simp at he
  · split at he
    · rw [rank_load _ _ _ e he] at hx; cases hx
    · simp at he
  · simp [rank] at hx; omega

theorem ordered_sweep_nrg (s : Sw) (ninit nmax : Nat) :
    Ordered (sweepEv s ninit nmax .nrg) ∧ ∀ e ∈ sweepEv s ninit nmax .nrg, ∀ x, rank e = some x → 1 ≤ x ∧ x ≤ 3 := by
  unfold sweepEv
  have h0 : ∀ e ∈ (if Run.nrg = .nrg ∧ s.calc0 = true then [Ev.calc0] else []), ∀ x, rank e = some x → x = 1 := by
    intro e he x hx
    split at he
    · simp at he; subst he; simp [rank] at hx; omega
    · simp at he
  have h1 : ∀ e ∈ (visited ninit nmax).flatMap (fun st => stepEv s .nrg st.ndx), ∀ x, rank e = some x → x = 2 := by
    intro e he x hx
    obtain ⟨st, -, he⟩ := List.mem_flatMap.1 he
    exact rank_step_nrg s _ e he x hx
  have h2 : ∀ e ∈ [Ev.sweepEnd .nrg], ∀ x, rank e = some x → x = 3 := by
    intro e he x hx
    simp at he; subst he; simp [rank] at hx; omega
  constructor
  · refine ordered_append 2 _ _ (ordered_append 1 _ _ (ordered_const 1 _ h0) (ordered_const 2 _ h1) ?_ ?_)
      (ordered_const 3 _ h2) ?_ ?_
    · intro e he x hx; have := h0 e he x hx; omega
    · intro e he x hx; have := h1 e he x hx; omega
    · intro e he x hx
      rcases List.mem_append.1 he with he | he
      · have := h0 e he x hx; omega
      · have := h1 e he x hx; omega
    · intro e he x hx; have := h2 e he x hx; omega
  · intro e he x hx
    rcases List.mem_append.1 he with he | he
    · rcases List.mem_append.1 he with he | he
      · have := h0 e he x hx; omega
      · have := h1 e he x hx; omega
    · have := h2 e he x hx; omega

theorem ordered_sweep_dmnrg (s : Sw) (ninit nmax : Nat) :
    Ordered (sweepEv s ninit nmax .dmnrg) ∧ ∀ e ∈ sweepEv s ninit nmax .dmnrg, ∀ x, rank e = some x → 6 ≤ x ∧ x ≤ 7 := by
  unfold sweepEv
  rw [if_neg (by simp), List.nil_append]
  have h1 : ∀ e ∈ (visited ninit nmax).flatMap (fun st => stepEv s .dmnrg st.ndx), ∀ x, rank e = some x → x = 6 := by
    intro e he x hx
    obtain ⟨st, -, he⟩ := List.mem_flatMap.1 he
    exact rank_step_dmnrg s _ e he x hx
  have h2 : ∀ e ∈ [Ev.sweepEnd .dmnrg], ∀ x, rank e = some x → x = 7 := by
    intro e he x hx
    simp at he; subst he; simp [rank] at hx; omega
  constructor
  · refine ordered_append 6 _ _ (ordered_const 6 _ h1) (ordered_const 7 _ h2) ?_ ?_
    · intro e he x hx; have := h1 e he x hx; omega
    · intro e he x hx; have := h2 e he x hx; omega
  · intro e he x hx
    rcases List.mem_append.1 he with he | he
    · have := h1 e he x hx; omega
    · have := h2 e he x hx; omega

theorem rank_prepare (k : Kind) (c : Nat) (ninit nmax : Nat) (hc : ∀ n, rank (.save k n) = some c) :
    ∀ e ∈ prepareEv k ninit nmax, ∀ x, rank e = some x → x = c := by
  intro e he x hx
  unfold prepareEv at he
  rcases List.mem_cons.1 he with rfl | he
  · rw [hc] at hx; cases hx; rfl
  · obtain ⟨n, -, he⟩ := List.mem_flatMap.1 he
    simp at he
    rcases he with rfl | rfl
    · cases hx
    · rw [hc] at hx; cases hx; rfl

/-- The stages of a run come in the documented order: set-up, measurements
before the first iteration, first sweep, its end, the reduced density matrices,
the full density matrices, second sweep, its end, completion marker. -/
theorem stages_in_order (s : Sw) (ninit nmax : Nat) : Ordered (program s ninit nmax) := by
  unfold program
  obtain ⟨ho, hr⟩ := ordered_sweep_nrg s ninit nmax
  obtain ⟨ho', hr'⟩ := ordered_sweep_dmnrg s ninit nmax
  have hr4 : ∀ e ∈ (if s.needRho then prepareEv .rho ninit nmax else []), ∀ x, rank e = some x → x = 4 := by
    intro e he x hx
    split at he
    · exact rank_prepare .rho 4 ninit nmax (fun _ => rfl) e he x hx
    · simp at he
  have hr5 : ∀ e ∈ (if s.needRhoFDM then prepareEv .rhoFDM ninit nmax else []), ∀ x, rank e = some x → x = 5 := by
    intro e he x hx
    split at he
    · exact rank_prepare .rhoFDM 5 ninit nmax (fun _ => rfl) e he x hx
    · simp at he
  have hd : ∀ e ∈ (if s.done then [Ev.done] else []), ∀ x, rank e = some x → x = 8 := by
    intro e he x hx
    split at he
    · simp at he; subst he; simp [rank] at hx; omega
    · simp at he
  have hfirst : Ordered (.setup :: sweepEv s ninit nmax .nrg) ∧
      ∀ e ∈ (.setup :: sweepEv s ninit nmax .nrg), ∀ x, rank e = some x → x ≤ 3 := by
    constructor
    · refine List.pairwise_cons.2 ⟨?_, ho⟩
      intro b _ x y hx _
      simp [rank] at hx; omega
    · intro e he x hx
      rcases List.mem_cons.1 he with rfl | he
      · simp [rank] at hx; omega
      · exact (hr e he x hx).2
  have hmid : Ordered (if s.dm then
      (if s.needRho then prepareEv .rho ninit nmax else []) ++
      (if s.needRhoFDM then prepareEv .rhoFDM ninit nmax else []) ++
      sweepEv s ninit nmax .dmnrg else []) ∧
      ∀ e ∈ (if s.dm then
      (if s.needRho then prepareEv .rho ninit nmax else []) ++
      (if s.needRhoFDM then prepareEv .rhoFDM ninit nmax else []) ++
      sweepEv s ninit nmax .dmnrg else []), ∀ x, rank e = some x → 4 ≤ x ∧ x ≤ 7 := by
    split
    · constructor
      · refine ordered_append 6 _ _ (ordered_append 4 _ _ (ordered_const 4 _ hr4) (ordered_const 5 _ hr5) ?_ ?_) ho' ?_ ?_
        · intro e he x hx; have := hr4 e he x hx; omega
        · intro e he x hx; have := hr5 e he x hx; omega
        · intro e he x hx
          rcases List.mem_append.1 he with he | he
          · have := hr4 e he x hx; omega
          · have := hr5 e he x hx; omega
        · intro e he x hx; exact (hr' e he x hx).1
      · intro e he x hx
        rcases List.mem_append.1 he with he | he
        · rcases List.mem_append.1 he with he | he
          · have := hr4 e he x hx; omega
          · have := hr5 e he x hx; omega
        · have := hr' e he x hx; omega
    · exact ⟨List.Pairwise.nil, by simp⟩
  refine ordered_append 7 _ _ (ordered_append 3 _ _ hfirst.1 hmid.1 hfirst.2 ?_) (ordered_const 8 _ hd) ?_ ?_
  · intro e he x hx; have := hmid.2 e he x hx; omega
  · intro e he x hx
    rcases List.mem_append.1 he with he | he
    · have := hfirst.2 e he x hx; omega
    · exact (hmid.2 e he x hx).2
  · intro e he x hx; have := hd e he x hx; omega

theorem done_notMem (s : Sw) (ninit nmax : Nat) :
    Ev.done ∉ (.setup :: sweepEv s ninit nmax .nrg ++
  (if s.dm then
    (if s.needRho then prepareEv .rho ninit nmax else []) ++
    (if s.needRhoFDM then prepareEv .rhoFDM ninit nmax else []) ++
    sweepEv s ninit nmax .dmnrg
   else [])) := by
  intro h
  have hd : rank .done = some 8 := rfl
  rcases List.mem_append.1 h with h | h
  · rcases List.mem_cons.1 h with h | h
    · cases h
    · have := (ordered_sweep_nrg s ninit nmax).2 _ h 8 hd; omega
  · split at h
    · rcases List.mem_append.1 h with h | h
      · rcases List.mem_append.1 h with h | h
        · split at h
          · have := rank_prepare .rho 4 ninit nmax (fun _ => rfl) _ h 8 hd; omega
          · simp at h
        · split at h
          · have := rank_prepare .rhoFDM 5 ninit nmax (fun _ => rfl) _ h 8 hd; omega
          · simp at h
      · have := (ordered_sweep_dmnrg s ninit nmax).2 _ h 8 hd; omega
    · simp at h

/-- The completion marker exists exactly if it was requested and the whole run
completed; in particular it is never created when anything was thrown. -/
theorem done_iff_complete (s : Sw) (ninit nmax : Nat) (fs : Files) (fails : Nat → Bool) :
    Ev.done ∈ (exec fails 0 fs (program s ninit nmax)).1 ↔
      s.done = true ∧ (exec fails 0 fs (program s ninit nmax)).2.isSome := by
  rw [exec_complete]
  have hp := exec_prefix fails 0 fs (program s ninit nmax)
  generalize exec fails 0 fs (program s ninit nmax) = r at hp ⊢
  constructor
  · intro h
    have hs : s.done = true := by
      by_contra hn
      have := hp.subset h
      unfold program at this
      rw [if_neg hn, List.append_nil] at this
      exact done_notMem s ninit nmax this
    refine ⟨hs, ?_⟩
    obtain ⟨t, ht⟩ := hp
    have hprog := ht
    unfold program at hprog
    rw [if_pos hs] at hprog
    rcases List.append_eq_append_iff.1 hprog with ⟨a, ha, hb⟩ | ⟨c, hc, hd⟩
    · exact absurd (by rw [ha]; exact List.mem_append_left _ h) (done_notMem s ninit nmax)
    · cases c with
      | nil => rw [hc, List.append_nil] at h; exact absurd h (done_notMem s ninit nmax)
      | cons x c' =>
        have : t = [] := by
          have := congrArg List.length hd
          simp only [List.length_cons, List.length_append, List.length_nil] at this
          exact List.length_eq_zero_iff.1 (by omega)
        rw [← ht, this, List.append_nil]
  · rintro ⟨hs, h⟩
    rw [h]
    unfold program
    rw [if_pos hs]
    simp

theorem measure_count_step (s : Sw) (r r' : Run) (n m : Nat) :
    (stepEv s r' m).count (.measure r n) = if r = r' ∧ m = n then 1 else 0 := by
  unfold stepEv
  rw [List.append_assoc, recalc_one]
  have h1 : ∀ rm k j, (loadEv rm k j).count (.measure r n) = 0 := by
    intro rm k j; cases rm <;> simp [loadEv, List.count_cons]
  have h2 : ∀ (b : Bool) rm k j, (if b = true then loadEv rm k j else []).count (.measure r n) = 0 := by
    intro b rm k j; cases b
    · rfl
    · exact h1 rm k j
  have h3 : ∀ b : Bool, (if b = true then [Ev.save .unitary m] else []).count (.measure r n) = 0 := by
    intro b; cases b <;> simp [List.count_cons]
  have h4 : ([Ev.measure r' m]).count (.measure r n) = if r = r' ∧ m = n then 1 else 0 := by
    rw [List.count_singleton]
    by_cases h : r = r' ∧ m = n
    · simp [h]
    · rw [if_neg h, if_neg]
      intro he
      simp at he
      exact h ⟨he.1.symm, he.2⟩
  cases r'
  · simp only [List.count_append, List.count_cons, measureEv, reduceCtorEq, if_false, List.count_nil, h3, h4]
    simp
  · simp only [List.count_append, measureEv, if_true, h1, h2, h4]
    simp

theorem sum_indicator (n : Nat) : ∀ (len start : Nat),
    ((List.range' start len).map fun m => if m = n then 1 else 0).sum = if start ≤ n ∧ n < start + len then 1 else 0 := by
  intro len
  induction len with
  | zero => intro start; simp
  | succ l ih =>
    intro start
    rw [List.range'_succ, List.map_cons, List.sum_cons, ih]
    by_cases h1 : start = n
    · rw [if_pos h1, if_neg (by omega), if_pos (by omega)]
    · rw [if_neg h1]
      by_cases h2 : start + 1 ≤ n ∧ n < start + 1 + l
      · rw [if_pos h2, if_pos (by omega)]
      · rw [if_neg h2, if_neg (by omega)]

theorem measure_count_sweep (s : Sw) (r r' : Run) (ninit nmax n : Nat) (hn : ninit ≤ n ∧ n < nmax) :
    (sweepEv s ninit nmax r').count (.measure r n) = if r = r' then 1 else 0 := by
  unfold sweepEv
  rw [flatMap_visited ninit nmax (fun n => stepEv s r' n), List.count_append, List.count_append, List.count_flatMap]
  have h1 : List.count (Ev.measure r n) [Ev.sweepEnd r'] = 0 := by simp [List.count_cons]
  have h2 : List.count (Ev.measure r n) (if r' = .nrg ∧ s.calc0 = true then [Ev.calc0] else []) = 0 := by
    split <;> simp [List.count_cons]
  rw [h1, h2]
  simp only [Function.comp_def, measure_count_step]
  by_cases hr : r = r'
  · simp only [hr, true_and, if_true]
    rw [sum_indicator, if_pos (by omega)]
  · simp only [hr, false_and, if_false]
    simp

/-- In a completed run every step is measured exactly once in the first sweep, and
exactly once in the second sweep if that is on, and never otherwise. -/
theorem measured_exactly_once (s : Sw) (ninit nmax n : Nat) (hn : ninit ≤ n ∧ n < nmax) :
    (program s ninit nmax).count (.measure .nrg n) = 1 ∧
    (program s ninit nmax).count (.measure .dmnrg n) = if s.dm then 1 else 0 := by
  have hp : ∀ r k, (prepareEv k ninit nmax).count (.measure r n) = 0 := by
    intro r k
    rw [List.count_eq_zero]
    unfold prepareEv
    simp
  have hd : ∀ r, (if s.done then [Ev.done] else []).count (.measure r n) = 0 := by
    intro r; split <;> simp [List.count_cons]
  have hq : ∀ r k b, (if b = true then prepareEv k ninit nmax else []).count (.measure r n) = 0 := by
    intro r k b; split
    · exact hp r k
    · rfl
  unfold program
  simp only [List.count_append, List.cons_append, List.count_cons, hd]
  rw [measure_count_sweep s _ _ _ _ _ hn, measure_count_sweep s _ _ _ _ _ hn]
  cases hdm : s.dm
  · simp
  · simp [hq, measure_count_sweep s _ _ _ _ _ hn]

/-- If the completion marker exists, all requested work was done: every step was
measured in the first sweep and, if any second-sweep algorithm was requested, in
the second one too, both sweeps having run to their end. -/
theorem done_means_all_measured (s : Sw) (ninit nmax : Nat) (fs : Files) (fails : Nat → Bool)
    (h : Ev.done ∈ (exec fails 0 fs (program s.validate ninit nmax)).1) :
    let tr := (exec fails 0 fs (program s.validate ninit nmax)).1
    Ev.sweepEnd .nrg ∈ tr ∧ (∀ n, ninit ≤ n → n < nmax → Ev.measure .nrg n ∈ tr) ∧
    (∀ a, enabled s .dmnrg a = true →
      Ev.sweepEnd .dmnrg ∈ tr ∧ ∀ n, ninit ≤ n → n < nmax → Ev.measure .dmnrg n ∈ tr) := by
  intro tr
  have hc := ((done_iff_complete s.validate ninit nmax fs fails).1 h).2
  rw [exec_complete] at hc
  have htr : tr = program s.validate ninit nmax := hc
  rw [htr]
  refine ⟨?_, ?_, ?_⟩
  · unfold program sweepEv; simp
  · intro n h1 h2
    have := (measured_exactly_once s.validate ninit nmax n ⟨h1, h2⟩).1
    exact List.count_pos_iff.1 (by omega)
  · intro a ha
    have hd := (second_sweep_on s a ha).1
    refine ⟨?_, ?_⟩
    · unfold program sweepEv; simp [hd]
    · intro n h1 h2
      have := (measured_exactly_once s.validate ninit nmax n ⟨h1, h2⟩).2
      rw [hd] at this
      exact List.count_pos_iff.1 (by simp at this; omega)

example : Ev.done ∈ (exec (fun _ => false) 0 (fun _ _ => false)
      (program ({ Sw.default with cfs := true } : Sw).validate 0 2)).1 ∧
    Ev.done ∉ (exec (fun i => i == 12) 0 (fun _ _ => false)
      (program ({ Sw.default with cfs := true } : Sw).validate 0 2)).1 := by decide

end Verif.Config
