import Verif.Spectral.Algo
import Verif.Spectral.BinsProps
import Verif.Spectral.PatchProps
import Verif.Mat.Props
import Mathlib.Analysis.SpecialFunctions.ExpDeriv
import Mathlib.Analysis.Calculus.Deriv.Slope
/-!
# C29, C30: lesser and greater parts of the spectral functions
-/

namespace Verif.Spectral
open Verif.Mat Finset

theorem mapM_of_forall {α β} (l : List α) (f : α → Option β) (g : α → β) (h : ∀ x ∈ l, f x = some (g x)) :
    l.mapM f = some (l.map g) := by
  induction l with
  | nil => rfl
  | cons x l ih =>
    rw [List.mapM_cons, h x (by simp), ih fun y hy => h y (List.mem_cons_of_mem _ hy)]
    rfl

theorem mem_loop2 (js is : List ℕ) (j i : ℕ) : (j, i) ∈ loop2 js is ↔ j ∈ js ∧ i ∈ is := by
  simp [loop2]

theorem nodup_loop2 (js is : List ℕ) (h1 : js.Nodup) (h2 : is.Nodup) : (loop2 js is).Nodup := by
  unfold loop2
  rw [List.nodup_flatMap]
  refine ⟨fun j _ => h2.map fun a b h => by simpa using h, ?_⟩
  refine h1.imp fun {a b} hab => ?_
  intro x hx hy
  simp only [List.mem_map] at hx hy
  obtain ⟨i, _, rfl⟩ := hx
  obtain ⟨i', _, he⟩ := hy
  exact hab (by simpa using (congrArg Prod.fst he).symm)

/-- The pairs of states visited by the FDM algorithms, in this order. -/
def fdmPairs (c : Calc) : List (ℕ × ℕ) :=
  loop2 c.dj.D c.di.D ++ loop2 c.dj.K c.di.D ++ loop2 c.dj.D c.di.K

theorem mem_K (d : EigD) (k : ℕ) : k ∈ d.K ↔ k < d.boundary := by simp [EigD.K]
theorem mem_D (d : EigD) (k : ℕ) : k ∈ d.D ↔ d.boundary ≤ k ∧ k < d.nrall := by
  simp only [EigD.D, List.mem_range'_1]; omega

/-- **C29.** Every pair of states in which at least one is discarded is visited
exactly once; pairs of kept states are never visited. -/
theorem fdmPairs_spec (c : Calc) (hi : c.di.nrkept ≤ c.di.nrall) (hj : c.dj.nrkept ≤ c.dj.nrall) :
    (fdmPairs c).Nodup ∧ ∀ j i, (j, i) ∈ fdmPairs c ↔
      (j < c.dj.nrall ∧ i < c.di.nrall ∧ ¬ (j < c.dj.boundary ∧ i < c.di.boundary)) := by
  have nK : ∀ d : EigD, d.K.Nodup := fun d => by simp [EigD.K, List.nodup_range']
  have nD : ∀ d : EigD, d.D.Nodup := fun d => by simp [EigD.D, List.nodup_range']
  have bi : c.di.boundary ≤ c.di.nrall := by unfold EigD.boundary; split <;> omega
  have bj : c.dj.boundary ≤ c.dj.nrall := by unfold EigD.boundary; split <;> omega
  constructor
  · unfold fdmPairs
    rw [List.nodup_append, List.nodup_append]
    refine ⟨⟨nodup_loop2 _ _ (nD _) (nD _), nodup_loop2 _ _ (nK _) (nD _), ?_⟩, nodup_loop2 _ _ (nD _) (nK _), ?_⟩
    · rintro ⟨j, i⟩ h1 x h2 rfl
      rw [mem_loop2, mem_D, mem_D] at h1
      rw [mem_loop2, mem_K] at h2
      omega
    · rintro ⟨j, i⟩ h1 x h2 rfl
      rw [List.mem_append, mem_loop2, mem_loop2, mem_D, mem_D, mem_K] at h1
      rw [mem_loop2, mem_K, mem_D] at h2
      omega
  · intro j i
    simp only [fdmPairs, List.mem_append, mem_loop2, mem_D, mem_K]
    omega

/-- The complete density matrix of a subspace at one step: the reduced density
matrix on the kept states and `wnf exp(-E/T)` on the discarded ones. -/
noncomputable def fullRho (d : EigD) (ρ : Mat ℂ) (wnf T : ℝ) (k l : ℕ) : ℂ :=
  if k < d.boundary ∧ l < d.boundary then ρ.e k l
  else if k = l then (wnf : ℂ) * boltz (d.absG l) T
  else 0

/-- The greater weight of a pair: `conj (A j i) (B R_i) j i`. -/
noncomputable def gtWeight (c : Calc) (j i : ℕ) : ℂ :=
  star (c.op1.e j i) * ∑ k ∈ range c.di.nrall, c.op2.e j k * fullRho c.di c.rhoI c.wnf c.T k i

/-- The lesser weight of a pair: `∓ conj (A j i) (R_j B) j i`. -/
noncomputable def lsWeight (c : Calc) (j i : ℕ) : ℂ :=
  -c.sign * (star (c.op1.e j i) * ∑ k ∈ range c.dj.nrall, fullRho c.dj c.rhoJ c.wnf c.T j k * c.op2.e k i)

/-- The sizes of the matrices in a call of `calc`. -/
structure Sized (c : Calc) : Prop where
  op1 : c.op1.r = c.dj.nrall ∧ c.op1.c = c.di.nrall
  op2 : c.op2.r = c.dj.nrall ∧ c.op2.c = c.di.nrall
  keptI : c.di.nrkept ≤ c.di.nrall
  keptJ : c.dj.nrkept ≤ c.dj.nrall
  rhoI : c.di.last = false → c.rhoI.r = c.di.nrkept ∧ c.rhoI.c = c.di.nrkept
  rhoJ : c.dj.last = false → c.rhoJ.r = c.dj.nrkept ∧ c.rhoJ.c = c.dj.nrkept

theorem Sized.bi {c : Calc} (h : Sized c) : c.di.boundary ≤ c.di.nrall := by
  have := h.keptI; unfold EigD.boundary; split <;> omega
theorem Sized.bj {c : Calc} (h : Sized c) : c.dj.boundary ≤ c.dj.nrall := by
  have := h.keptJ; unfold EigD.boundary; split <;> omega
theorem Sized.rI {c : Calc} (h : Sized c) (hb : 0 < c.di.boundary) :
    c.rhoI.r = c.di.boundary ∧ c.rhoI.c = c.di.boundary := by
  cases hl : c.di.last
  · have := h.rhoI hl; simpa [EigD.boundary, hl] using this
  · simp [EigD.boundary, hl] at hb
theorem Sized.rJ {c : Calc} (h : Sized c) (hb : 0 < c.dj.boundary) :
    c.rhoJ.r = c.dj.boundary ∧ c.rhoJ.c = c.dj.boundary := by
  cases hl : c.dj.last
  · have := h.rhoJ hl; simpa [EigD.boundary, hl] using this
  · simp [EigD.boundary, hl] at hb

theorem entry_some (A : Mat ℂ) (j i : ℕ) (h1 : j < A.r) (h2 : i < A.c) : entry A j i = some (A.e j i) := by
  simp [entry, h1, h2]

/-- The weight on a discarded initial state. -/
theorem sum_fullRho_D (d : EigD) (ρ : Mat ℂ) (wnf T : ℝ) (f : ℕ → ℂ) (i : ℕ) (h : d.boundary ≤ i) (hi : i < d.nrall) :
    ∑ k ∈ range d.nrall, f k * fullRho d ρ wnf T k i = f i * ((wnf : ℂ) * boltz (d.absG i) T) := by
  rw [Finset.sum_eq_single_of_mem i (mem_range.mpr hi)]
  · unfold fullRho; rw [if_neg (by omega), if_pos rfl]
  · intro k _ hk
    unfold fullRho; rw [if_neg (by omega), if_neg hk, mul_zero]

theorem sum_fullRho_D' (d : EigD) (ρ : Mat ℂ) (wnf T : ℝ) (f : ℕ → ℂ) (j : ℕ) (h : d.boundary ≤ j) (hj : j < d.nrall) :
    ∑ k ∈ range d.nrall, fullRho d ρ wnf T j k * f k = ((wnf : ℂ) * boltz (d.absG j) T) * f j := by
  rw [Finset.sum_eq_single_of_mem j (mem_range.mpr hj)]
  · unfold fullRho; rw [if_neg (by omega), if_pos rfl]
  · intro k _ hk
    unfold fullRho; rw [if_neg (by omega), if_neg (Ne.symm hk), zero_mul]

theorem sum_fullRho_K (d : EigD) (ρ : Mat ℂ) (wnf T : ℝ) (f : ℕ → ℂ) (i : ℕ) (h : i < d.boundary)
    (hb : d.boundary ≤ d.nrall) :
    ∑ k ∈ range d.nrall, f k * fullRho d ρ wnf T k i = ∑ k ∈ range d.boundary, f k * ρ.e k i := by
  rw [← Finset.sum_subset (range_mono hb)]
  · refine Finset.sum_congr rfl fun k hk => ?_
    unfold fullRho; rw [if_pos ⟨mem_range.mp hk, h⟩]
  · intro k _ hk
    rw [mem_range] at hk
    unfold fullRho; rw [if_neg (by omega), if_neg (by omega), mul_zero]

theorem sum_fullRho_K' (d : EigD) (ρ : Mat ℂ) (wnf T : ℝ) (f : ℕ → ℂ) (j : ℕ) (h : j < d.boundary)
    (hb : d.boundary ≤ d.nrall) :
    ∑ k ∈ range d.nrall, fullRho d ρ wnf T j k * f k = ∑ k ∈ range d.boundary, ρ.e j k * f k := by
  rw [← Finset.sum_subset (range_mono hb)]
  · refine Finset.sum_congr rfl fun k hk => ?_
    unfold fullRho; rw [if_pos ⟨h, mem_range.mp hk⟩]
  · intro k _ hk
    rw [mem_range] at hk
    unfold fullRho; rw [if_neg (by omega), if_neg (by omega), zero_mul]

/-- The four weights in terms of the complete density matrix. -/
theorem wGtExp_eq {c : Calc} (h : Sized c) (j i : ℕ) (hj : j < c.dj.nrall) (hi : c.di.boundary ≤ i ∧ i < c.di.nrall) :
    wGtExp c (j, i) = some (gtWeight c j i) := by
  unfold wGtExp gtWeight
  rw [entry_some _ _ _ (by rw [h.op1.1]; exact hj) (by rw [h.op1.2]; exact hi.2),
    entry_some _ _ _ (by rw [h.op2.1]; exact hj) (by rw [h.op2.2]; exact hi.2),
    sum_fullRho_D _ _ _ _ _ _ hi.1 hi.2]
  simp only [Option.bind_eq_bind, Option.bind_some, Option.pure_def, Option.some.injEq]
  ring

theorem wLsExp_eq {c : Calc} (h : Sized c) (j i : ℕ) (hj : c.dj.boundary ≤ j ∧ j < c.dj.nrall) (hi : i < c.di.nrall) :
    wLsExp c (j, i) = some (lsWeight c j i) := by
  unfold wLsExp lsWeight
  rw [entry_some _ _ _ (by rw [h.op1.1]; exact hj.2) (by rw [h.op1.2]; exact hi),
    entry_some _ _ _ (by rw [h.op2.1]; exact hj.2) (by rw [h.op2.2]; exact hi),
    sum_fullRho_D' _ _ _ _ _ _ hj.1 hj.2]
  simp only [Option.bind_eq_bind, Option.bind_some, Option.pure_def, Option.some.injEq]
  ring

theorem wGtRho_eq {c : Calc} (h : Sized c) (m : Mat ℂ) (hm : prodFit c.op2 c.rhoI = some m) (j i : ℕ)
    (hj : j < c.dj.nrall) (hi : i < c.di.boundary) : wGtRho c m (j, i) = some (gtWeight c j i) := by
  obtain ⟨C, hC, h1, _, h3⟩ := prodFit_spec c.op2 c.rhoI
  obtain rfl : C = m := Option.some.inj (hC.symm.trans hm)
  obtain ⟨r1, r2⟩ := h.rI (by omega)
  obtain ⟨s1, s2⟩ := h1 (by rw [h.op2.1]; omega) (by rw [r2]; omega)
  unfold wGtRho gtWeight
  rw [entry_some _ _ _ (by rw [h.op1.1]; exact hj) (by rw [h.op1.2]; have := h.bi; omega),
    entry_some C j i (by rw [s1, h.op2.1]; exact hj) (by rw [s2, r2]; exact hi),
    sum_fullRho_K _ _ _ _ _ _ hi h.bi, h3 j (by rw [s1, h.op2.1]; exact hj) i (by rw [s2, r2]; exact hi),
    h.op2.2, r1, Nat.min_eq_right h.bi]
  rfl

theorem wLsRho_eq {c : Calc} (h : Sized c) (m : Mat ℂ) (hm : prodFit c.rhoJ c.op2 = some m) (j i : ℕ)
    (hj : j < c.dj.boundary) (hi : i < c.di.nrall) : wLsRho c m (j, i) = some (lsWeight c j i) := by
  obtain ⟨C, hC, h1, _, h3⟩ := prodFit_spec c.rhoJ c.op2
  obtain rfl : C = m := Option.some.inj (hC.symm.trans hm)
  obtain ⟨r1, r2⟩ := h.rJ (by omega)
  obtain ⟨s1, s2⟩ := h1 (by rw [r1]; omega) (by rw [h.op2.2]; omega)
  unfold wLsRho lsWeight
  rw [entry_some _ _ _ (by rw [h.op1.1]; have := h.bj; omega) (by rw [h.op1.2]; exact hi),
    entry_some C j i (by rw [s1, r1]; exact hj) (by rw [s2, h.op2.2]; exact hi),
    sum_fullRho_K' _ _ _ _ _ _ hj h.bj, h3 j (by rw [s1, r1]; exact hj) i (by rw [s2, h.op2.2]; exact hi),
    h.op2.1, r2, Nat.min_eq_left h.bj]
  simp only [Option.bind_eq_bind, Option.bind_some, Option.pure_def, Option.some.injEq]
  ring

/-- **C29.** The greater part never fails and adds, for every pair of states with at
least one discarded, exactly one peak at the energy difference with the weight
`factor * conj (A j i) (B R_i) j i`. -/
theorem fdmGt_spec (c : Calc) (h : Sized c) :
    fdmGt c = some ((fdmPairs c).map fun x => (c.energyG x.1 x.2, c.factor * gtWeight c x.1 x.2)) := by
  obtain ⟨m, hm, _⟩ := prodFit_spec c.op2 c.rhoI
  have bi := h.bi
  have bj := h.bj
  have e1 : ∀ x ∈ loop2 c.dj.D c.di.D ++ loop2 c.dj.K c.di.D,
      gtExp c x = some (c.energyG x.1 x.2, c.factor * gtWeight c x.1 x.2) := by
    rintro ⟨j, i⟩ hx
    rw [List.mem_append, mem_loop2, mem_loop2, mem_D, mem_D, mem_K] at hx
    have := wGtExp_eq h j i (by omega) (by omega)
    unfold wGtExp at this
    unfold gtExp
    rw [entry_some _ _ _ (by rw [h.op1.1]; dsimp only; omega) (by rw [h.op1.2]; dsimp only; omega),
      entry_some _ _ _ (by rw [h.op2.1]; dsimp only; omega) (by rw [h.op2.2]; dsimp only; omega)] at this ⊢
    simp only [Option.bind_eq_bind, Option.bind_some, Option.pure_def, Option.some.injEq] at this ⊢
    rw [this]
  have e2 : ∀ x ∈ loop2 c.dj.D c.di.K, gtRho c m x = some (c.energyG x.1 x.2, c.factor * gtWeight c x.1 x.2) := by
    rintro ⟨j, i⟩ hx
    rw [mem_loop2, mem_D, mem_K] at hx
    have := wGtRho_eq h m hm j i (by omega) (by omega)
    unfold wGtRho at this
    unfold gtRho
    simp only [Option.bind_eq_bind, Option.pure_def, Option.bind_eq_some_iff, Option.some.injEq] at this ⊢
    obtain ⟨a, ha, b, hb, hw⟩ := this
    exact ⟨a, ha, b, hb, by rw [hw]⟩
  unfold fdmGt
  simp only [hm, Option.bind_eq_bind, Option.bind_some]
  rw [mapM_of_forall _ _ _ fun x hx => e1 x (List.mem_append_left _ hx),
    mapM_of_forall _ _ _ fun x hx => e1 x (List.mem_append_right _ hx), mapM_of_forall _ _ _ e2]
  simp [fdmPairs]

/-- **C29.** The same for the lesser part, with the weight
`∓ factor * conj (A j i) (R_j B) j i` (upper sign: bosons). -/
theorem fdmLs_spec (c : Calc) (h : Sized c) :
    fdmLs c = some ((fdmPairs c).map fun x => (c.energyG x.1 x.2, c.factor * lsWeight c x.1 x.2)) := by
  obtain ⟨m, hm, _⟩ := prodFit_spec c.rhoJ c.op2
  have bi := h.bi
  have bj := h.bj
  have e1 : ∀ x ∈ loop2 c.dj.D c.di.D ++ loop2 c.dj.D c.di.K,
      lsExp c x = some (c.energyG x.1 x.2, c.factor * lsWeight c x.1 x.2) := by
    rintro ⟨j, i⟩ hx
    rw [List.mem_append, mem_loop2, mem_loop2, mem_D, mem_D, mem_K] at hx
    have := wLsExp_eq h j i (by omega) (by omega)
    unfold wLsExp at this
    unfold lsExp
    rw [entry_some _ _ _ (by rw [h.op1.1]; dsimp only; omega) (by rw [h.op1.2]; dsimp only; omega),
      entry_some _ _ _ (by rw [h.op2.1]; dsimp only; omega) (by rw [h.op2.2]; dsimp only; omega)] at this ⊢
    simp only [Option.bind_eq_bind, Option.bind_some, Option.pure_def, Option.some.injEq] at this ⊢
    rw [← this]
    refine Prod.ext rfl ?_
    dsimp only
    ring
  have e2 : ∀ x ∈ loop2 c.dj.K c.di.D, lsRho c m x = some (c.energyG x.1 x.2, c.factor * lsWeight c x.1 x.2) := by
    rintro ⟨j, i⟩ hx
    rw [mem_loop2, mem_D, mem_K] at hx
    have := wLsRho_eq h m hm j i (by omega) (by omega)
    unfold wLsRho at this
    unfold lsRho
    simp only [Option.bind_eq_bind, Option.pure_def, Option.bind_eq_some_iff, Option.some.injEq] at this ⊢
    obtain ⟨a, ha, b, hb, hw⟩ := this
    exact ⟨a, ha, b, hb, by rw [hw]⟩
  unfold fdmLs
  simp only [hm, Option.bind_eq_bind, Option.bind_some]
  rw [mapM_of_forall _ _ _ fun x hx => e1 x (List.mem_append_left _ hx), mapM_of_forall _ _ _ e2,
    mapM_of_forall _ _ _ fun x hx => e1 x (List.mem_append_right _ hx)]
  simp [fdmPairs]

/-- **C29.** The combined algorithm gives its two accumulators exactly the peaks of
the separate algorithms, in the same order. -/
theorem fdm_eq (c : Calc) (h : Sized c) : ∃ g l, fdmGt c = some g ∧ fdmLs c = some l ∧ fdm c = some (g, l) := by
  refine ⟨_, _, fdmGt_spec c h, fdmLs_spec c h, ?_⟩
  obtain ⟨m, hm, _⟩ := prodFit_spec c.op2 c.rhoI
  obtain ⟨m', hm', _⟩ := prodFit_spec c.rhoJ c.op2
  have bi := h.bi
  have bj := h.bj
  let v : ℕ × ℕ → (ℝ × ℂ) × (ℝ × ℂ) := fun x =>
    ((c.energyG x.1 x.2, c.factor * gtWeight c x.1 x.2), (c.energyG x.1 x.2, c.factor * lsWeight c x.1 x.2))
  have e1 : ∀ x ∈ loop2 c.dj.D c.di.D, fdmBoth c (wGtExp c) (wLsExp c) x = some (v x) := by
    rintro ⟨j, i⟩ hx
    rw [mem_loop2, mem_D, mem_D] at hx
    unfold fdmBoth
    rw [wGtExp_eq h j i (by omega) (by omega), wLsExp_eq h j i (by omega) (by omega)]; rfl
  have e2 : ∀ x ∈ loop2 c.dj.K c.di.D, fdmBoth c (wGtExp c) (wLsRho c m') x = some (v x) := by
    rintro ⟨j, i⟩ hx
    rw [mem_loop2, mem_K, mem_D] at hx
    unfold fdmBoth
    rw [wGtExp_eq h j i (by omega) (by omega), wLsRho_eq h m' hm' j i (by omega) (by omega)]; rfl
  have e3 : ∀ x ∈ loop2 c.dj.D c.di.K, fdmBoth c (wGtRho c m) (wLsExp c) x = some (v x) := by
    rintro ⟨j, i⟩ hx
    rw [mem_loop2, mem_K, mem_D] at hx
    unfold fdmBoth
    rw [wGtRho_eq h m hm j i (by omega) (by omega), wLsExp_eq h j i (by omega) (by omega)]; rfl
  unfold fdm
  simp only [hm, hm', Option.bind_eq_bind, Option.bind_some]
  rw [mapM_of_forall _ _ _ e1, mapM_of_forall _ _ _ e2, mapM_of_forall _ _ _ e3]
  simp [fdmPairs, v, Function.comp_def]

/-! ### The accumulated spectra -/

theorem mergeCFS_eq (a b c : Chain) : mergeCFS a b = some c ↔
    mergeBins a.spos b.spos = some c.spos ∧ mergeBins a.sneg b.sneg = some c.sneg := by
  simp only [mergeCFS, Option.bind_eq_bind, Option.bind_eq_some_iff, Option.pure_def, Option.some.injEq]
  constructor
  · rintro ⟨p, hp, n, hn, rfl⟩; exact ⟨hp, hn⟩
  · rintro ⟨hp, hn⟩; exact ⟨_, hp, _, hn, rfl⟩

/-- Merging four sets of bins in pairs. -/
theorem mergeBins_four (a b c d ac bd ab abc : Spikes) (h1 : mergeBins a b = some ab) (h2 : mergeBins ab c = some abc)
    (h3 : mergeBins a c = some ac) (h4 : mergeBins b d = some bd) : mergeBins abc d = mergeBins ac bd := by
  have e1 := mergeBins_assoc a c b
  rw [h3, mergeBins_comm c b] at e1
  have e2 := mergeBins_assoc a b c
  rw [h1] at e2
  simp only [Option.bind_some] at e1 e2
  have e3 : mergeBins ac b = some abc := by rw [e1, ← e2, h2]
  have e4 := mergeBins_assoc ac b d
  rw [e3, h4] at e4
  simpa using e4

/-- **C29, C30.** After any number of steps the spectrum accumulated by the combined
algorithm is, bin by bin, the merge of the spectra accumulated by the separate
greater and lesser algorithms on the same steps. -/
theorem both_is_sum (g : Grid) (steps : List (List (ℝ × ℂ) × List (ℝ × ℂ))) (G L : Chain)
    (hG : steps.foldlM (fun c s => stepOne g c s.1) (Chain.new g) = some G)
    (hL : steps.foldlM (fun c s => stepOne g c s.2) (Chain.new g) = some L) :
    ∃ B, steps.foldlM (fun c s => stepBoth g c s.1 s.2) (Chain.new g) = some B ∧ mergeCFS G L = some B ∧
      B.total = G.total + L.total := by
  have key : ∀ (steps : List (List (ℝ × ℂ) × List (ℝ × ℂ))) (G0 L0 B0 G L : Chain), mergeCFS G0 L0 = some B0 →
      steps.foldlM (fun c s => stepOne g c s.1) G0 = some G → steps.foldlM (fun c s => stepOne g c s.2) L0 = some L →
      ∃ B, steps.foldlM (fun c s => stepBoth g c s.1 s.2) B0 = some B ∧ mergeCFS G L = some B := by
    intro steps
    induction steps with
    | nil =>
      intro G0 L0 B0 G L h h1 h2
      obtain rfl := Option.some.inj h1
      obtain rfl := Option.some.inj h2
      exact ⟨B0, rfl, h⟩
    | cons s steps ih =>
      intro G0 L0 B0 G L h h1 h2
      rw [List.foldlM_cons] at h1 h2
      obtain ⟨G1, hG1, h1⟩ := Option.bind_eq_some_iff.mp h1
      obtain ⟨L1, hL1, h2⟩ := Option.bind_eq_some_iff.mp h2
      unfold stepOne at hG1 hL1
      generalize hg : (s.1.foldl (fun c p => c.add g p.1 p.2) (Chain.new g)) = cg at hG1
      generalize hl : (s.2.foldl (fun c p => c.add g p.1 p.2) (Chain.new g)) = cl at hL1
      rw [mergeCFS_eq] at h hG1 hL1
      have some_of : ∀ a b ab c ac, mergeBins a b = some ab → mergeBins a c = some ac → ∃ abc, mergeBins ab c = some abc := by
        intro a b ab c ac h1 h2
        have e1 := (mergeBins_spec _ _ _ h1).1
        have e2 := (mergeBins_isSome a c).mp (by rw [h2]; rfl)
        exact Option.isSome_iff_exists.mp ((mergeBins_isSome ab c).mpr (e1.trans e2))
      obtain ⟨p, hp⟩ := some_of _ _ _ _ _ h.1 hG1.1
      obtain ⟨n, hn⟩ := some_of _ _ _ _ _ h.2 hG1.2
      have ep := mergeBins_four _ _ _ _ _ _ _ _ h.1 hp hG1.1 hL1.1
      have en := mergeBins_four _ _ _ _ _ _ _ _ h.2 hn hG1.2 hL1.2
      have some_four : ∀ a b ab c ac d bd, mergeBins a b = some ab → mergeBins a c = some ac → mergeBins b d = some bd →
          ∃ x, mergeBins ac bd = some x := by
        intro a b ab c ac d bd h1 h2 h3
        have e1 := (mergeBins_spec _ _ _ h2).1
        have e2 := (mergeBins_spec _ _ _ h3).1
        have e3 := (mergeBins_isSome a b).mp (by rw [h1]; rfl)
        exact Option.isSome_iff_exists.mp ((mergeBins_isSome ac bd).mpr (e1.trans (e3.trans e2.symm)))
      obtain ⟨xp, hxp⟩ := some_four _ _ _ _ _ _ _ h.1 hG1.1 hL1.1
      obtain ⟨xn, hxn⟩ := some_four _ _ _ _ _ _ _ h.2 hG1.2 hL1.2
      obtain ⟨B, hB, hm⟩ := ih G1 L1 ⟨xp, xn⟩ G L ((mergeCFS_eq _ _ _).mpr ⟨hxp, hxn⟩) h1 h2
      refine ⟨B, ?_, hm⟩
      rw [List.foldlM_cons]
      have hstep : stepBoth g B0 s.1 s.2 = some ⟨xp, xn⟩ := by
        unfold stepBoth
        rw [hg, hl, (mergeCFS_eq _ _ ⟨p, n⟩).mpr ⟨hp, hn⟩]
        exact (mergeCFS_eq _ _ _).mpr ⟨ep.trans hxp, en.trans hxn⟩
      rw [hstep]
      exact hB
  have hnew : mergeCFS (Chain.new g) (Chain.new g) = some (Chain.new g) := by
    have := merge_zero (loggridStd g)
    have e : (loggridStd g).map (fun p => ((p.1, 0) : ℝ × ℂ)) = loggridStd g := by simp [loggridStd]
    rw [e] at this
    exact (mergeCFS_eq _ _ _).mpr ⟨this, this⟩
  obtain ⟨B, hB, hm⟩ := key steps _ _ _ G L hnew hG hL
  exact ⟨B, hB, hm, mergeCFS_total _ _ _ hm⟩

/-- **C29.** The accumulation succeeds at every step and, with nothing discarded, the
total weight is the sum of the weights of all peaks. -/
theorem stepOne_total (g : Grid) (hg : GoodGrid g) (hacc : g.accumulation ≤ 0) (hd : g.discardImmediately ≤ 0)
    (steps : List (List (ℝ × ℂ))) :
    ∃ G, steps.foldlM (fun c s => stepOne g c s) (Chain.new g) = some G ∧
      G.total = (steps.map fun s => (s.map Prod.snd).sum).sum := by
  have hne : loggridStd g ≠ [] := by
    intro h
    have := (loggridStd_spec g hg).1
    rw [h] at this; simp at this
  -- filling the bins of one step
  have fill : ∀ (l : List (ℝ × ℂ)) (c : Chain), c.spos ≠ [] → c.sneg ≠ [] →
      (l.foldl (fun c p => c.add g p.1 p.2) c).total = c.total + (l.map Prod.snd).sum ∧
      (l.foldl (fun c p => c.add g p.1 p.2) c).spos.map Prod.fst = c.spos.map Prod.fst ∧
      (l.foldl (fun c p => c.add g p.1 p.2) c).sneg.map Prod.fst = c.sneg.map Prod.fst := by
    intro l
    induction l with
    | nil => intro c _ _; simp
    | cons p l ih =>
      intro c h1 h2
      have hs := chainAdd_spec g c h1 h2 hacc hd p.1 p.2
      have he : (c.add g p.1 p.2).spos.map Prod.fst = c.spos.map Prod.fst ∧
          (c.add g p.1 p.2).sneg.map Prod.fst = c.sneg.map Prod.fst := by
        rcases le_or_gt 0 p.1 with h | h
        · obtain ⟨e1, e2⟩ := hs.2.1 h
          obtain ⟨i, r, hsp⟩ := addStd_split g c.spos h1 |p.1| p.2
          rw [e1, e2]; exact ⟨hsp.energies, rfl⟩
        · obtain ⟨e1, e2⟩ := hs.2.2 h
          obtain ⟨i, r, hsp⟩ := addStd_split g c.sneg h2 |p.1| p.2
          rw [e1, e2]; exact ⟨rfl, hsp.energies⟩
      have n1 : (c.add g p.1 p.2).spos ≠ [] := by
        intro h; have := he.1; rw [h] at this; exact h1 (List.map_eq_nil_iff.mp this.symm)
      have n2 : (c.add g p.1 p.2).sneg ≠ [] := by
        intro h; have := he.2; rw [h] at this; exact h2 (List.map_eq_nil_iff.mp this.symm)
      obtain ⟨h3, h4, h5⟩ := ih _ n1 n2
      simp only [List.foldl_cons, List.map_cons, List.sum_cons]
      exact ⟨by rw [h3, hs.1]; ring, h4.trans he.1, h5.trans he.2⟩
  have key : ∀ (steps : List (List (ℝ × ℂ))) (c : Chain), c.spos.map Prod.fst = (loggridStd g).map Prod.fst →
      c.sneg.map Prod.fst = (loggridStd g).map Prod.fst →
      ∃ G, steps.foldlM (fun c s => stepOne g c s) c = some G ∧
        G.total = c.total + (steps.map fun s => (s.map Prod.snd).sum).sum := by
    intro steps
    induction steps with
    | nil => intro c _ _; exact ⟨c, rfl, by simp⟩
    | cons s steps ih =>
      intro c h1 h2
      obtain ⟨f1, f2, f3⟩ := fill s (Chain.new g) hne hne
      generalize hcs : s.foldl (fun c p => c.add g p.1 p.2) (Chain.new g) = cs at f1 f2 f3
      obtain ⟨p, hp⟩ := Option.isSome_iff_exists.mp ((mergeBins_isSome c.spos cs.spos).mpr (h1.trans f2.symm))
      obtain ⟨n, hn⟩ := Option.isSome_iff_exists.mp ((mergeBins_isSome c.sneg cs.sneg).mpr (h2.trans f3.symm))
      have hm : mergeCFS c cs = some ⟨p, n⟩ := (mergeCFS_eq _ _ _).mpr ⟨hp, hn⟩
      obtain ⟨G, hG, ht⟩ := ih ⟨p, n⟩ ((mergeBins_spec _ _ _ hp).1.trans h1) ((mergeBins_spec _ _ _ hn).1.trans h2)
      refine ⟨G, ?_, ?_⟩
      · rw [List.foldlM_cons]
        unfold stepOne at hG ⊢
        rw [hcs, hm]; exact hG
      · have h0 : (Chain.new g).total = 0 := by
          simp [Chain.total, Chain.new, (loggridStd_spec g hg).2.1]
        rw [ht, mergeCFS_total _ _ _ hm, f1, h0]
        simp only [List.map_cons, List.sum_cons]; ring
  obtain ⟨G, hG, ht⟩ := key steps (Chain.new g) rfl rfl
  refine ⟨G, hG, ?_⟩
  rw [ht]
  simp [Chain.total, Chain.new, (loggridStd_spec g hg).2.1]

end Verif.Spectral
