import Verif.Dm.Fdm
import Verif.Dm.Props
import Verif.Thermo.FdmProps
/-!
# C27: the trace of the full density matrix at each step is the weight still to come
-/

namespace Verif.Dm
open Verif.Invar Verif.Symm Verif.Mat Finset
variable {𝕜 : Type} [RCLike 𝕜]

/-- The multiplicity as `size_t`. -/
def multN (S : Symmetry) (I : Label) : ℕ := (mult S.fields I).toNat

/-- What the weights of one step have to do with its stored spectrum: `ZnDN` is the
sum of the Boltzmann factors over the discarded states, and `wn` is a
non-negative multiple of the sum with respect to the ground state. -/
def WeightOK (S : Symmetry) (T : ℝ) (s : FShell 𝕜) : Prop :=
  s.ZnDN = Thermo.shellSum (multN S) (fun d i => Real.exp (-(d.vals.absZero i) / T)) s.thermo ∧
  ∃ c, 0 ≤ c ∧ s.wn = c * Thermo.shellSum (multN S) (fun d i => Real.exp (-(d.vals.absG i) / T)) s.thermo

/-- The stored spectrum of a step fits the eigenvectors on disk. -/
def ThermoOK (s : FShell 𝕜) : Prop :=
  (s.thermo.map Thermo.Sub.label).Nodup ∧ ∀ d ∈ s.thermo, ∃ E, s.diag.lookup d.label = some E ∧ d.dim ≤ E.nr

theorem fits_init (T : ℝ) (s : FShell 𝕜) (h : ThermoOK s) : Fits (initRhoFDM T s) s.diag := by
  refine ⟨?_, fun p hp => ?_⟩
  · have : (initRhoFDM T s).map Prod.fst = s.thermo.map Thermo.Sub.label := by
      simp [initRhoFDM, Function.comp_def]
    rw [this]; exact h.1
  · simp only [initRhoFDM, List.mem_map] at hp
    obtain ⟨d, hd, rfl⟩ := hp
    obtain ⟨E, hE, hle⟩ := h.2 d hd
    exact ⟨rfl, E, hE, hle⟩

theorem diagonal_init (T : ℝ) (s : FShell 𝕜) : ∀ p ∈ initRhoFDM T s, Diagonal p.2 := by
  intro p hp
  simp only [initRhoFDM, List.mem_map] at hp
  obtain ⟨d, hd, rfl⟩ := hp
  intro i _ j _ hij
  simp [hij]

theorem sum_all (d : Thermo.Sub) (f : ℕ → ℝ) :
    ∑ i ∈ range d.max, (open Classical in if i ∈ d.all then f i else 0) = (d.all.map f).sum := by
  classical
  rw [← sum_filter]
  have hn : d.all.Nodup := by
    simp only [Thermo.Sub.all]; exact List.nodup_range'
  have : (range d.max).filter (fun i => i ∈ d.all) = d.all.toFinset := by
    ext i
    simp only [mem_filter, mem_range, List.mem_toFinset, and_iff_right_iff_imp]
    simp only [Thermo.Sub.all, List.mem_range'_1]
    omega
  rw [List.sum_toFinset f hn |>.symm]
  congr 1

theorem shellSum_zero_iff (mult : Label → ℕ) (f g : Thermo.Sub → ℕ → ℝ) (sh : Thermo.Shell)
    (hf : ∀ s i, 0 < f s i) (h : Thermo.shellSum mult f sh = 0) : Thermo.shellSum mult g sh = 0 := by
  simp only [Thermo.shellSum] at h ⊢
  have hnn : ∀ s ∈ sh, 0 ≤ (s.all.map fun i => (mult s.label : ℝ) * f s i).sum := by
    intro s _
    exact Thermo.Spec.sum_map_nonneg _ _ fun i _ => mul_nonneg (by positivity) (hf s i).le
  apply List.sum_eq_zero
  intro x hx
  obtain ⟨s, hs, rfl⟩ := List.mem_map.1 hx
  apply List.sum_eq_zero
  intro y hy
  obtain ⟨i, hi, rfl⟩ := List.mem_map.1 hy
  have h1 : (s.all.map fun i => (mult s.label : ℝ) * f s i).sum = 0 := by
    refine le_antisymm ?_ (hnn s hs)
    rw [← h]
    exact List.single_le_sum (by
      intro z hz
      obtain ⟨s', hs', rfl⟩ := List.mem_map.1 hz
      exact hnn s' hs') _ (List.mem_map.2 ⟨s, hs, rfl⟩)
  have h2 : (mult s.label : ℝ) * f s i ≤ 0 := by
    rw [← h1]
    exact List.single_le_sum (by
      intro z hz
      obtain ⟨j, hj, rfl⟩ := List.mem_map.1 hz
      exact mul_nonneg (by positivity) (hf s j).le) _ (List.mem_map.2 ⟨i, hi, rfl⟩)
  have h3 : (mult s.label : ℝ) = 0 := by
    have : 0 ≤ (mult s.label : ℝ) := by positivity
    nlinarith [hf s i]
  rw [h3, zero_mul]

/-- The trace of the contribution of the discarded states of a step is the
weight of that step. -/
theorem trace_init (S : Symmetry) (T : ℝ) (s : FShell 𝕜) (hm : ∀ d ∈ s.thermo, 0 ≤ mult S.fields d.label)
    (hW : WeightOK S T s) : rhoTrace S (initRhoFDM T s) = ((s.wn : ℝ) : 𝕜) := by
  classical
  obtain ⟨hZ, c, hc, hw⟩ := hW
  by_cases h0 : s.ZnDN = 0
  · have hw0 : s.wn = 0 := by
      rw [hw, shellSum_zero_iff (multN S) _ _ s.thermo (fun _ _ => Real.exp_pos _) (hZ ▸ h0), mul_zero]
    rw [hw0]
    simp only [rhoTrace, initRhoFDM, List.map_map]
    rw [RCLike.ofReal_zero]
    apply List.sum_eq_zero
    intro x hx
    obtain ⟨d, hd, rfl⟩ := List.mem_map.1 hx
    simp [trace, h0]
  · have e1 : rhoTrace S (initRhoFDM T s)
        = (((s.thermo.map fun d => (d.all.map fun i => (multN S d.label : ℝ) *
            Real.exp (-(d.vals.absZero i) / T)).sum * (s.wn / s.ZnDN)).sum : ℝ) : 𝕜) := by
      simp only [rhoTrace, initRhoFDM, List.map_map]
      have hcast : ∀ l : List ℝ, ((l.sum : ℝ) : 𝕜) = (l.map (RCLike.ofReal : ℝ → 𝕜)).sum := by
        intro l
        induction l with
        | nil => simp
        | cons a l ih => simp [ih]
      rw [hcast, List.map_map]
      congr 1
      apply List.map_congr_left
      intro d hd
      simp only [Function.comp_def, trace, h0, ne_eq, not_false_eq_true, true_and]
      have hmul : ((mult S.fields d.label : ℤ) : 𝕜) = (((multN S d.label : ℕ) : ℝ) : 𝕜) := by
        have : ((multN S d.label : ℕ) : ℤ) = mult S.fields d.label := Int.toNat_of_nonneg (hm d hd)
        rw [← this]; simp
      rw [hmul]
      have e2 : ∑ i ∈ range d.max, (if i ∈ d.all then
          ((Real.exp (-(d.vals.absZero i) / T) * s.wn / s.ZnDN : ℝ) : 𝕜) else 0)
          = ((∑ i ∈ range d.max, (if i ∈ d.all then
          (Real.exp (-(d.vals.absZero i) / T) * s.wn / s.ZnDN : ℝ) else 0) : ℝ) : 𝕜) := by
        rw [RCLike.ofReal_sum]
        refine sum_congr rfl fun i _ => ?_
        split <;> simp
      have e3 := sum_all d fun i => Real.exp (-(d.vals.absZero i) / T) * s.wn / s.ZnDN
      refine Eq.trans (congrArg _ (e2.trans (congrArg _ e3))) ?_
      rw [← RCLike.ofReal_mul]
      congr 1
      rw [← Thermo.Spec.sum_map_mul_left', ← Thermo.Spec.sum_map_mul_right']
      congr 1
      apply List.map_congr_left
      intro i _
      ring
    rw [e1, Thermo.Spec.sum_map_mul_right']
    have e4 : (s.thermo.map fun d => (d.all.map fun i => (multN S d.label : ℝ) *
            Real.exp (-(d.vals.absZero i) / T)).sum).sum = s.ZnDN := hZ.symm
    rw [e4]
    congr 1
    field_simp

/-- A run as the sweep for the full density matrix sees it, latest step first. -/
def FHistory (S : Symmetry) (T : ℝ) (shells : List (FShell 𝕜)) : Prop :=
  History S (shells.map FShell.toShell) ∧
  ∀ s ∈ shells, ThermoOK s ∧ WeightOK S T s ∧ ∀ d ∈ s.thermo, 0 ≤ mult S.fields d.label

/-- The trace of an optional contribution. -/
def optTrace (S : Symmetry) (dd : Option (Rho 𝕜)) : 𝕜 :=
  match dd with | some d => rhoTrace S d | none => 0

theorem fdmStep_trace (S : Symmetry) (hv : RowsValid S) (prev cur : Shell 𝕜)
    (hL : Linked S prev.store cur) (rho : Rho 𝕜) (hR : Fits rho cur.diag) (dd : Option (Rho 𝕜))
    (hD : ∀ d, dd = some d → Fits d cur.diag ∧ ∀ p ∈ d, Diagonal p.2) :
    ∃ r, fdmStep S prev.store cur.store cur.diag rho dd = some r ∧
      SavedFor S (rhoTrace S rho + optTrace S dd) prev r := by
  obtain ⟨r, h1, h2⟩ := fdmStep_entries hv hL hR dd hD
  refine ⟨r, h1, savedFor_of_prev hL.prevNodup h2 _ ?_⟩
  rw [rhoTrace_prev S prev.store r _ h2]
  simp only [sum_add_distrib, mul_add]
  rw [List.sum_map_add, entrySum_trace hv hL hR]
  congr 1
  cases dd with
  | none => simp [optTrace, optEntry]
  | some d => exact entrySum_trace hv hL (hD d rfl).1

theorem fdmSweep_trace (S : Symmetry) (hv : RowsValid S) (T : ℝ) (last : Bool) (shells : List (FShell 𝕜))
    (hH : FHistory S T shells) (rho : Rho 𝕜) (hR : ∀ s ∈ shells.head?, Fits rho s.diag) :
    ∃ rs, fdmSweep S T last shells rho = some rs ∧ rs.length = shells.length - 1 ∧
      ∀ (k : ℕ) r, rs[k]? = some r → ∃ s, shells[k + 1]? = some s ∧
        SavedFor S (rhoTrace S rho + ((((shells.take (k + 1)).drop (if last then 1 else 0)).map FShell.wn).sum : ℝ))
          s.toShell r := by
  induction shells generalizing rho last with
  | nil => exact ⟨[], rfl, rfl, by simp⟩
  | cons cur shells ih =>
    cases shells with
    | nil => exact ⟨[], rfl, rfl, by simp⟩
    | cons prev rest =>
      obtain ⟨⟨hL, hs, hH'⟩, hT⟩ := hH
      have hRc := hR cur (by simp)
      obtain ⟨r, h1, h2⟩ := fdmStep_trace S hv prev.toShell cur.toShell hL rho hRc
        (if last then none else some (initRhoFDM T cur)) (by
          intro d hd
          cases last with
          | true => simp at hd
          | false =>
            simp only [Bool.false_eq_true, if_false, Option.some.injEq] at hd
            subst hd
            exact ⟨fits_init T cur (hT cur (by simp)).1, diagonal_init T cur⟩)
      have htr : optTrace S (if last then none else some (initRhoFDM T cur)) = ((if last then 0 else cur.wn : ℝ) : 𝕜) := by
        cases last with
        | true => simp [optTrace]
        | false =>
          simp only [Bool.false_eq_true, if_false, optTrace]
          exact trace_init S T cur (hT cur (by simp)).2.2 (hT cur (by simp)).2.1
      rw [htr] at h2
      have hfit : ∀ s ∈ (prev :: rest).head?, Fits r s.diag := by
        intro s hs'
        simp only [List.head?_cons, Option.mem_def, Option.some.injEq] at hs'
        subst hs'
        exact fits_of_saved hL.prevNodup h2 hs
      obtain ⟨rs, g1, g2, g3⟩ := ih false ⟨hH', fun s hs' => hT s (by simp [hs'])⟩ r hfit
      refine ⟨r :: rs, by simp [fdmSweep, h1, g1], by simp [g2], ?_⟩
      intro k x hx
      cases k with
      | zero =>
        simp only [List.getElem?_cons_zero, Option.some.injEq] at hx
        subst hx
        refine ⟨prev, rfl, ?_⟩
        cases last <;> simpa using h2
      | succ k =>
        simp only [List.getElem?_cons_succ] at hx
        obtain ⟨s, k1, k2⟩ := g3 k x hx
        refine ⟨s, by simpa using k1, ?_⟩
        rw [h2.2.2] at k2
        have e : (rhoTrace S rho + ((if last then 0 else cur.wn : ℝ) : 𝕜))
            + (((((prev :: rest).take (k + 1)).drop (if false = true then 1 else 0)).map FShell.wn).sum : ℝ)
            = rhoTrace S rho + (((((cur :: prev :: rest).take (k + 1 + 1)).drop (if last then 1 else 0)).map FShell.wn).sum : ℝ) := by
          cases last with
          | true => simp
          | false => simp [add_assoc]
        rw [← e]; exact k2

/-- **C27.** For every run, the sweep for the full density matrix succeeds; the
matrices saved for a step have one block per subspace with as many states as
were kept, and their trace (weighted by multiplicities) is the sum of the weights
of all later steps (`shells` lists the steps from the last to the first one, so
entry `k` of the result belongs to step `k + 1` of the list). -/
theorem fdm_trace (S : Symmetry) (hv : RowsValid S) (T : ℝ) (shells : List (FShell 𝕜)) (hH : FHistory S T shells) :
    ∃ rs, fdmAll S T shells = some rs ∧ rs.length = shells.length - 1 ∧
      ∀ (k : ℕ) r, rs[k]? = some r → ∃ s, shells[k + 1]? = some s ∧
        SavedFor S ((((shells.take (k + 1)).map FShell.wn).sum : ℝ) : 𝕜) s.toShell r := by
  cases shells with
  | nil => exact ⟨[], rfl, rfl, by simp⟩
  | cons cur rest =>
    obtain ⟨rs, h1, h2, h3⟩ := fdmSweep_trace S hv T true (cur :: rest) hH (initRhoFDM T cur) (by
      intro s hs
      simp only [List.head?_cons, Option.mem_def, Option.some.injEq] at hs
      subst hs
      exact fits_init T cur (hH.2 cur (by simp)).1)
    refine ⟨rs, h1, h2, fun k r hr => ?_⟩
    obtain ⟨s, k1, k2⟩ := h3 k r hr
    refine ⟨s, k1, ?_⟩
    rw [trace_init S T cur (hH.2 cur (by simp)).2.2 (hH.2 cur (by simp)).2.1] at k2
    have e : ((cur.wn : ℝ) : 𝕜) + (((((cur :: rest).take (k + 1)).drop (if true = true then 1 else 0)).map FShell.wn).sum : ℝ)
        = (((((cur :: rest).take (k + 1)).map FShell.wn).sum : ℝ) : 𝕜) := by
      simp
    rw [← e]; exact k2

/-- The weights computed by `calc_ZnD` satisfy the hypothesis of `fdm_trace`. -/
theorem weightOK_of_calcZnD (S : Symmetry) (T : ℝ) (combs : ℕ) (shells : List (FShell 𝕜)) (st : Thermo.FdmStats)
    (h : Thermo.calcZnD T (multN S) combs (shells.map FShell.thermo) = some st)
    (hw : shells.map FShell.wn = st.wn) (hz : shells.map FShell.ZnDN = st.ZnDN) :
    ∀ s ∈ shells, WeightOK S T s := by
  simp only [Thermo.calcZnD] at h
  split at h
  swap
  · simp at h
  cases h
  simp only at hw hz
  intro s hs
  obtain ⟨k, hk⟩ := List.mem_iff_getElem?.1 hs
  have hz' := congrArg (fun l => l[k]?) hz
  have hw' := congrArg (fun l => l[k]?) hw
  have hlen : k < shells.length := (List.getElem?_eq_some_iff.1 hk).1
  simp only [List.getElem?_map, hk, Option.map_some, Option.some.injEq] at hz'
  refine ⟨hz', ?_⟩
  simp only [List.getElem?_map, hk, Option.map_some, List.getElem?_zip_eq_some, List.zip, List.getElem?_zipWith,
    List.map_map, List.getElem?_range, List.length_map, hlen, if_true, Function.comp_def, Option.some.injEq] at hw'
  refine ⟨_, ?_, hw'⟩
  apply div_nonneg (by positivity)
  apply List.sum_nonneg
  intro x hx
  obtain ⟨p, hp, rfl⟩ := List.mem_map.1 hx
  obtain ⟨h1, h2⟩ := List.of_mem_zip hp
  obtain ⟨a, _, ha⟩ := List.mem_map.1 h1
  obtain ⟨b, _, hb⟩ := List.mem_map.1 h2
  apply mul_nonneg
  · rw [← ha]; exact Thermo.shellSum_nonneg _ _ _ fun _ _ => (Real.exp_pos _).le
  · rw [← hb]; positivity

/-- **C27 (with the weights of the run).** With the weights `calc_ZnD` computes
for the run, the trace at every step is the sum of the weights of the later
steps; at the first step it is one minus the weight of the first step. -/
theorem fdm_trace_run (S : Symmetry) (hv : RowsValid S) (T : ℝ) (combs : ℕ) (shells : List (FShell 𝕜))
    (st : Thermo.FdmStats) (hH : History S (shells.map FShell.toShell))
    (hT : ∀ s ∈ shells, ThermoOK s ∧ ∀ d ∈ s.thermo, 0 ≤ mult S.fields d.label)
    (h : Thermo.calcZnD T (multN S) combs (shells.reverse.map FShell.thermo) = some st)
    (hw : shells.reverse.map FShell.wn = st.wn) (hz : shells.reverse.map FShell.ZnDN = st.ZnDN) :
    ∃ rs, fdmAll S T shells = some rs ∧ rs.length = shells.length - 1 ∧
      ∀ (k : ℕ) r, rs[k]? = some r → ∃ s, shells[k + 1]? = some s ∧
        SavedFor S (((st.wn.drop (shells.length - (k + 1))).sum : ℝ) : 𝕜) s.toShell r := by
  have hW := weightOK_of_calcZnD S T combs shells.reverse st h hw hz
  obtain ⟨rs, h1, h2, h3⟩ := fdm_trace S hv T shells
    ⟨hH, fun s hs => ⟨(hT s hs).1, hW s (by simpa using hs), (hT s hs).2⟩⟩
  refine ⟨rs, h1, h2, fun k r hr => ?_⟩
  obtain ⟨s, k1, k2⟩ := h3 k r hr
  refine ⟨s, k1, ?_⟩
  have hk : k + 1 < shells.length := (List.getElem?_eq_some_iff.1 k1).1
  have e : (st.wn.drop (shells.length - (k + 1))).sum = ((shells.take (k + 1)).map FShell.wn).sum := by
    rw [← hw, List.map_reverse, List.drop_reverse]
    rw [List.sum_reverse, ← List.map_take]
    congr 3
    simp; omega
  rw [e]; exact k2

/-- **C27 (first step).** When the energies of the stored spectra are consistent
(C24) and there is at least one state, the weights exist, and the trace at the
first step together with the weight of the states discarded there is one. -/
theorem fdm_total_one (S : Symmetry) (hv : RowsValid S) (T gs : ℝ) (combs : ℕ) (shells : List (FShell 𝕜))
    (st : Thermo.FdmStats) (hH : History S (shells.map FShell.toShell))
    (hT : ∀ s ∈ shells, ThermoOK s ∧ ∀ d ∈ s.thermo, 0 ≤ mult S.fields d.label)
    (h : Thermo.calcZnD T (multN S) combs (shells.reverse.map FShell.thermo) = some st)
    (hw : shells.reverse.map FShell.wn = st.wn) (hz : shells.reverse.map FShell.ZnDN = st.ZnDN)
    (hc : ∀ s ∈ shells, Thermo.Consistent gs s.thermo)
    (hne : (Thermo.physStates (multN S) combs (shells.reverse.map FShell.thermo)).flatten ≠ []) :
    ∀ rs, fdmAll S T shells = some rs → ∀ r, rs.getLast? = some r → ∀ s, shells.getLast? = some s →
      rhoTrace S r + ((s.wn : ℝ) : 𝕜) = 1 := by
  obtain ⟨st', h1, _, h2, _⟩ := Thermo.fdm_weights T gs (multN S) combs (shells.reverse.map FShell.thermo) (by
    intro sh hsh
    simp only [List.mem_map, List.mem_reverse] at hsh
    obtain ⟨s, hs, rfl⟩ := hsh
    exact hc s hs) hne
  rw [h] at h1
  cases h1
  obtain ⟨rs, g1, g2, g3⟩ := fdm_trace_run S hv T combs shells st hH hT h hw hz
  intro rs' hrs'
  rw [g1] at hrs'
  cases hrs'
  intro r hr s hs
  have hlen : rs.length ≠ 0 := by
    intro h0
    rw [List.length_eq_zero_iff.1 h0] at hr
    simp at hr
  rw [List.getLast?_eq_getElem?] at hr hs
  obtain ⟨s', k1, k2⟩ := g3 _ r hr
  have hidx : rs.length - 1 + 1 = shells.length - 1 := by omega
  rw [hidx, hs] at k1
  cases k1
  rw [k2.2.2, ← RCLike.ofReal_add]
  have hn : shells.length ≠ 0 := by omega
  have hL : st.wn.length = shells.length := by rw [← hw]; simp
  have hd : shells.length - (rs.length - 1 + 1) = 1 := by omega
  rw [hd]
  have hw0 : st.wn = s.wn :: st.wn.drop 1 := by
    have : st.wn[0]? = some s.wn := by
      rw [← hw, List.getElem?_map, List.getElem?_reverse (by omega)]
      simp [hs]
    cases hh : st.wn with
    | nil => rw [hh] at this; simp at this
    | cons a l => rw [hh] at this; simp at this; simp [this]
  rw [hw0, List.sum_cons] at h2
  have : (List.drop 1 st.wn).sum + s.wn = 1 := by linarith
  rw [this]; simp

section Positive
open scoped ComplexOrder

theorem hermitian_init (T : ℝ) (s : FShell 𝕜) : ∀ p ∈ initRhoFDM T s, Hermitian p.2 := by
  classical
  intro p hp
  simp only [initRhoFDM, List.mem_map] at hp
  obtain ⟨d, hd, rfl⟩ := hp
  refine ⟨rfl, fun i _ j _ => ?_⟩
  by_cases hij : i = j
  · subst hij
    simp only
    split <;> simp
  · have hji : ¬ j = i := fun h => hij h.symm
    simp [hij, hji]

theorem nonneg_init (S : Symmetry) (T : ℝ) (s : FShell 𝕜) (hW : WeightOK S T s) :
    ∀ p ∈ initRhoFDM T s, PosSemidef p.2 := by
  classical
  have hwn : 0 ≤ s.wn := by
    obtain ⟨_, c, hc, hw⟩ := hW
    rw [hw]
    exact mul_nonneg hc (Thermo.shellSum_nonneg _ _ _ fun _ _ => (Real.exp_pos _).le)
  have hZ : 0 ≤ s.ZnDN := by
    rw [hW.1]; exact Thermo.shellSum_nonneg _ _ _ fun _ _ => (Real.exp_pos _).le
  intro p hp
  simp only [initRhoFDM, List.mem_map] at hp
  obtain ⟨d, hd, rfl⟩ := hp
  intro x
  refine sum_nonneg fun i hi => sum_nonneg fun j hj => ?_
  by_cases hc : s.ZnDN ≠ 0 ∧ i = j ∧ i ∈ d.all
  · simp only [if_pos hc]
    obtain ⟨_, rfl, _⟩ := hc
    refine star_left_conjugate_nonneg ?_ (x i)
    rw [RCLike.ofReal_nonneg]
    positivity
  · simp only [if_neg hc]; simp

theorem fdmStep_good (S : Symmetry) (hv : RowsValid S) (prev cur : Shell 𝕜)
    (hL : Linked S prev.store cur) (rho : Rho 𝕜) (hR : Fits rho cur.diag) (dd : Option (Rho 𝕜))
    (hD : ∀ d, dd = some d → Fits d cur.diag ∧ ∀ p ∈ d, Diagonal p.2)
    (hg : ∀ p ∈ rho, Hermitian p.2 ∧ PosSemidef p.2)
    (hgd : ∀ d, dd = some d → ∀ p ∈ d, Hermitian p.2 ∧ PosSemidef p.2)
    (r : Rho 𝕜) (hr : fdmStep S prev.store cur.store cur.diag rho dd = some r) :
    ∀ p ∈ r, Hermitian p.2 ∧ PosSemidef p.2 := by
  obtain ⟨r', h1, h2⟩ := fdmStep_entries hv hL hR dd hD
  rw [hr] at h1
  cases h1
  intro q hq
  obtain ⟨p, hpm, e1, e2, e3, e4⟩ := forall₂_mem h2 q hq
  constructor
  · refine ⟨by rw [e2, e3], fun i hi j hj => ?_⟩
    rw [e2] at hi hj
    rw [e4 i hi j hj, e4 j hj i hi, star_add, ← entrySum_hermitian (fun p hp => (hg p hp).1) p.1 i j]
    cases dd with
    | none => simp [optEntry]
    | some d => simp only [optEntry]; rw [← entrySum_hermitian (fun p hp => (hgd d rfl p hp).1) p.1 i j]
  · intro x
    have hA := entrySum_nonneg hL hR (fun p hp => (hg p hp).2) p hpm p.2.kept x
    have hB : 0 ≤ form p.2.kept (optEntry S cur dd p.1) x := by
      cases dd with
      | none => simp [form, optEntry]
      | some d => exact entrySum_nonneg hL (hD d rfl).1 (fun p hp => (hgd d rfl p hp).2) p hpm p.2.kept x
    have := add_nonneg hA hB
    rw [← form_add] at this
    rw [e2]
    simp only [form] at this
    refine le_of_le_of_eq this (sum_congr rfl fun i hi => sum_congr rfl fun j hj => ?_)
    rw [e4 i (mem_range.1 hi) j (mem_range.1 hj)]

theorem fdmSweep_good (S : Symmetry) (hv : RowsValid S) (T : ℝ) (last : Bool) (shells : List (FShell 𝕜))
    (hH : FHistory S T shells) (rho : Rho 𝕜) (hR : ∀ s ∈ shells.head?, Fits rho s.diag)
    (hg : ∀ p ∈ rho, Hermitian p.2 ∧ PosSemidef p.2) (rs : List (Rho 𝕜))
    (hrs : fdmSweep S T last shells rho = some rs) : ∀ r ∈ rs, ∀ p ∈ r, Hermitian p.2 ∧ PosSemidef p.2 := by
  induction shells generalizing rho last rs with
  | nil => simp [fdmSweep] at hrs; subst hrs; simp
  | cons cur shells ih =>
    cases shells with
    | nil => simp [fdmSweep] at hrs; subst hrs; simp
    | cons prev rest =>
      obtain ⟨⟨hL, hs, hH'⟩, hT⟩ := hH
      have hRc := hR cur (by simp)
      have hD : ∀ d, (if last then none else some (initRhoFDM T cur)) = some d →
          Fits d cur.diag ∧ ∀ p ∈ d, Diagonal p.2 := by
        intro d hd
        cases last with
        | true => simp at hd
        | false =>
          simp only [Bool.false_eq_true, if_false, Option.some.injEq] at hd
          subst hd
          exact ⟨fits_init T cur (hT cur (by simp)).1, diagonal_init T cur⟩
      have hgd : ∀ d, (if last then none else some (initRhoFDM T cur)) = some d →
          ∀ p ∈ d, Hermitian p.2 ∧ PosSemidef p.2 := by
        intro d hd
        cases last with
        | true => simp at hd
        | false =>
          simp only [Bool.false_eq_true, if_false, Option.some.injEq] at hd
          subst hd
          exact fun p hp => ⟨hermitian_init T cur p hp, nonneg_init S T cur (hT cur (by simp)).2.1 p hp⟩
      obtain ⟨r, h1, h2⟩ := fdmStep_trace S hv prev.toShell cur.toShell hL rho hRc _ hD
      have hgr := fdmStep_good S hv prev.toShell cur.toShell hL rho hRc _ hD hg hgd r h1
      have hfit : ∀ s ∈ (prev :: rest).head?, Fits r s.diag := by
        intro s hs'
        simp only [List.head?_cons, Option.mem_def, Option.some.injEq] at hs'
        subst hs'
        exact fits_of_saved hL.prevNodup h2 hs
      have hH2 : FHistory S T (prev :: rest) := ⟨hH', fun s hs' => hT s (by simp [hs'])⟩
      obtain ⟨rs', g1, _⟩ := fdmSweep_trace S hv T false (prev :: rest) hH2 r hfit
      simp only [fdmSweep, h1, g1, Option.bind_eq_bind, Option.bind_some, Option.pure_def, Option.some.injEq] at hrs
      subst hrs
      intro x hx
      rcases List.mem_cons.1 hx with rfl | hx
      · exact hgr
      · exact ih false hH2 r hfit hgr rs' g1 x hx

/-- **C26 for the full density matrix.** All matrices saved by the sweep are
hermitian and non-negative. -/
theorem fdm_hermitian_nonneg (S : Symmetry) (hv : RowsValid S) (T : ℝ) (shells : List (FShell 𝕜))
    (hH : FHistory S T shells) (rs : List (Rho 𝕜)) (hrs : fdmAll S T shells = some rs) :
    ∀ r ∈ rs, ∀ p ∈ r, Hermitian p.2 ∧ PosSemidef p.2 := by
  cases shells with
  | nil => simp [fdmAll] at hrs; subst hrs; simp
  | cons cur rest =>
    refine fdmSweep_good S hv T true (cur :: rest) hH (initRhoFDM T cur) ?_ ?_ rs hrs
    · intro s hs
      simp only [List.head?_cons, Option.mem_def, Option.some.injEq] at hs
      subst hs
      exact fits_init T cur (hH.2 cur (by simp)).1
    · exact fun p hp => ⟨hermitian_init T cur p hp, nonneg_init S T cur (hH.2 cur (by simp)).2.1 p hp⟩

end Positive

/-! ### A concrete case: the run of `Props.lean`, all three states of the last step
counted as discarded, none discarded at the first step -/

private def exS : Symmetry := ⟨fields_QS, tab_QS_1ch⟩
private def exV (l : List ℝ) : Thermo.Values ℝ := ⟨l, 1, 0, 0, 0⟩
private def exE : Eig ℝ :=
  ⟨[⟨1, 1, fun _ _ => 1⟩, ⟨1, 0, fun _ _ => 0⟩, ⟨1, 0, fun _ _ => 0⟩, ⟨1, 0, fun _ _ => 0⟩], 1⟩
private noncomputable def exShell (b : BackShell) (d : DiagU ℝ) (t : Thermo.Shell) : FShell ℝ :=
  ⟨⟨b, d⟩, t, Thermo.shellSum (multN exS) (fun d i => Real.exp (-(d.vals.absG i) / 1)) t,
    Thermo.shellSum (multN exS) (fun d i => Real.exp (-(d.vals.absZero i) / 1)) t⟩
private noncomputable def exPrev : FShell ℝ :=
  exShell [([1, 1], ⟨[], 1⟩)] [([1, 1], ⟨[], 1⟩)] [⟨[1, 1], exV [0], 1, 1, false⟩]
private noncomputable def exCur : FShell ℝ :=
  exShell [([0, 1], ⟨[1, 0, 0, 0], 1⟩)] [([0, 1], exE)] [⟨[0, 1], exV [0], 1, 1, true⟩]

example : RowsValid exS ∧ FHistory exS 1 [exCur, exPrev] ∧ exCur.wn ≠ 0 := by
  refine ⟨rowsValid_of_decomposes _ _ dec_QS_1ch, ⟨⟨⟨by decide, ?_, ?_, by decide, ?_⟩, ?_, trivial⟩, ?_⟩, ?_⟩
  · intro p hp
    simp only [exPrev, exShell, List.mem_singleton] at hp; subst hp
    exact ⟨physical_valid (fs := fields_QS) (by decide), by decide⟩
  · intro p hp
    simp only [exCur, exShell, List.mem_singleton] at hp; subst hp
    exact ⟨physical_valid (fs := fields_QS) (by decide), by decide⟩
  · intro p hp
    simp only [exCur, exShell, List.mem_singleton] at hp; subst hp
    refine ⟨⟨[1, 0, 0, 0], 1⟩, by simp [exCur, exShell, List.lookup], by decide, rfl, ?_, ?_⟩
    · intro i B hB
      match i with
      | 0 | 1 | 2 | 3 => cases hB; exact ⟨rfl, rfl⟩
      | n + 4 => simp [exE] at hB
    · intro a ha b hb
      have ha' : a = 0 := by simp only [exE] at ha; omega
      have hb' : b = 0 := by simp only [exE] at hb; omega
      subst ha' hb'
      have : exS.combs = 4 := rfl
      rw [this]
      simp [sum_range_succ, exE]
  · intro p hp
    simp only [exPrev, exShell, List.mem_singleton] at hp; subst hp
    exact ⟨⟨[], 1⟩, by simp [exPrev, exShell, List.lookup], le_refl _⟩
  · intro s hs
    simp only [List.mem_cons, List.not_mem_nil, or_false] at hs
    rcases hs with rfl | rfl
    · refine ⟨⟨by simp [exCur, exShell], ?_⟩, ⟨rfl, 1, zero_le_one, by simp [exCur, exShell]⟩, ?_⟩
      · intro d hd
        simp only [exCur, exShell, List.mem_singleton] at hd; subst hd
        exact ⟨exE, by simp [exCur, exShell, List.lookup], le_refl _⟩
      · intro d hd
        simp only [exCur, exShell, List.mem_singleton] at hd; subst hd
        simp only; decide
    · refine ⟨⟨by simp [exPrev, exShell], ?_⟩, ⟨rfl, 1, zero_le_one, by simp [exPrev, exShell]⟩, ?_⟩
      · intro d hd
        simp only [exPrev, exShell, List.mem_singleton] at hd; subst hd
        exact ⟨⟨[], 1⟩, by simp [exPrev, exShell, List.lookup], le_refl _⟩
      · intro d hd
        simp only [exPrev, exShell, List.mem_singleton] at hd; subst hd
        simp only; decide
  · have : multN exS [0, 1] = 1 := by decide
    simp [exCur, exShell, Thermo.shellSum, Thermo.Sub.all, Thermo.Sub.min, Thermo.Sub.max, this, exV,
      Thermo.Values.absG, Thermo.Values.absT, Thermo.Values.absZero, Thermo.Values.rel]

end Verif.Dm
