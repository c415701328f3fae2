import Verif.Thermo.Props
import Verif.Num.Props
/-!
# C25, C28, C50: weights, thermodynamics, initial density matrix
-/

namespace Verif.Thermo
open Verif.Invar

/-! ## C25 -/

theorem zip_pows_sum (l : List ℝ) (p : List ℝ) (c : ℝ) :
    (((l.map (c * ·)).zip p).map fun q => q.1 * q.2).sum = c * ((l.zip p).map fun q => q.1 * q.2).sum := by
  induction l generalizing p with
  | nil => simp
  | cons a l ih =>
    cases p with
    | nil => simp
    | cons b p => simp [ih]; ring

theorem wn_list (l p : List ℝ) (c z : ℝ) (hc : c ≠ 0) :
    (((p.map (· / (c * z))).zip (l.map (c * ·))).map fun q => q.1 * q.2)
      = ((l.zip p).map fun q => q.1 * q.2).map (· / z) := by
  induction l generalizing p with
  | nil => simp
  | cons a l ih =>
    cases p with
    | nil => simp
    | cons b p =>
      simp only [List.map_cons, List.zip_cons_cons, ih, List.cons.injEq, and_true]
      rw [div_mul_eq_mul_div, mul_left_comm, mul_div_mul_left _ _ hc, mul_comm]

theorem ZnDG_eq (T gs : ℝ) (mult : Label → Nat) (store : List Shell) (h : ∀ sh ∈ store, Consistent gs sh) :
    store.map (shellSum mult fun s i => Real.exp (-(s.vals.absG i) / T))
      = (store.map (shellZ T mult)).map (Real.exp (gs / T) * ·) := by
  rw [List.map_map]
  apply List.map_congr_left
  intro sh hsh
  exact shellSum_absG T gs mult sh (h sh hsh)

/-- **C25.** For every history with at least one state in the complete basis,
the computation of the weights succeeds; the weight of a step is the share of
the canonical partition function carried by the physical states the step
contributes (environment degeneracy included); the weights add up to one and lie
in `[0,1]`; and the reported sum, shifted back by the ground-state energy, is the
partition function of all physical states. -/
theorem fdm_weights (T gs : ℝ) (mult : Label → Nat) (combs : Nat) (store : List Shell)
    (h : ∀ sh ∈ store, Consistent gs sh) (hne : (physStates mult combs store).flatten ≠ []) :
    ∃ st, calcZnD T mult combs store = some st ∧
      st.wn = (physStates mult combs store).map (fun es =>
        Spec.Z T es / Spec.Z T (physStates mult combs store).flatten) ∧
      st.wn.sum = 1 ∧ (∀ w ∈ st.wn, 0 ≤ w ∧ w ≤ 1) ∧
      st.ZZG * Real.exp (-gs / T) = Spec.Z T (physStates mult combs store).flatten := by
  have hz := Spec.Z_pos T _ hne
  generalize hZ : Spec.Z T (physStates mult combs store).flatten = z at *
  have hzs : ((((store.map (shellZ T mult)).zip (pows combs store.length)).map fun p => p.1 * p.2)).sum = z := by
    rw [← physStates_Z, ← Spec.Z_flatten, hZ]
  have hexp : Real.exp (gs / T) ≠ 0 := (Real.exp_pos _).ne'
  have hZZG : ((((store.map (shellSum mult fun s i => Real.exp (-(s.vals.absG i) / T))).zip
      (pows combs store.length)).map fun p => p.1 * p.2).sum) = Real.exp (gs / T) * z := by
    rw [ZnDG_eq T gs mult store h, zip_pows_sum, hzs]
  have hwn : ((((pows combs store.length).map (· / (Real.exp (gs / T) * z))).zip
      (store.map (shellSum mult fun s i => Real.exp (-(s.vals.absG i) / T)))).map fun p => p.1 * p.2)
      = (physStates mult combs store).map (fun es => Spec.Z T es / z) := by
    rw [ZnDG_eq T gs mult store h, wn_list _ _ _ _ hexp, ← physStates_Z, List.map_map]
    rfl
  have hsum : ((physStates mult combs store).map (fun es => Spec.Z T es / z)).sum = 1 := by
    have := Spec.sum_map_mul_right' (physStates mult combs store) z⁻¹ (Spec.Z T)
    simp only [← div_eq_mul_inv] at this
    rw [this, ← Spec.Z_flatten, hZ, div_self hz.ne']
  have hres : calcZnD T mult combs store = some
      ⟨store.map (shellSum mult fun s i => Real.exp (-(s.vals.absG i) / T)),
       store.map (shellSum mult fun s i => Real.exp (-(s.vals.absZero i) / T)),
       Real.exp (gs / T) * z, (pows combs store.length).map (· / (Real.exp (gs / T) * z)),
       (physStates mult combs store).map (fun es => Spec.Z T es / z)⟩ := by
    have hp : (List.range store.length).map (fun k => (combs : ℝ) ^ (store.length - k - 1))
        = pows combs store.length := rfl
    simp only [calcZnD, hp, hZZG, hwn, hsum, Num.numEqual_self, if_true]
  refine ⟨_, hres, rfl, hsum, ?_, ?_⟩
  · intro w hw
    obtain ⟨es, hes, rfl⟩ := List.mem_map.1 hw
    have h0 := Spec.Z_nonneg T es
    refine ⟨div_nonneg h0 hz.le, ?_⟩
    rw [div_le_one hz, ← hZ, Spec.Z_flatten]
    have : ∀ ls : List (List ℝ), es ∈ ls → Spec.Z T es ≤ (ls.map (Spec.Z T)).sum := by
      intro ls hls
      induction ls with
      | nil => simp at hls
      | cons a ls ih =>
        have h1 := Spec.Z_nonneg T a
        have h2 : 0 ≤ (ls.map (Spec.Z T)).sum := Spec.sum_map_nonneg _ _ fun b _ => Spec.Z_nonneg T b
        simp only [List.map_cons, List.sum_cons]
        rcases List.mem_cons.1 hls with rfl | hls
        · linarith
        · have := ih hls; linarith
    exact this _ hes
  · change Real.exp (gs / T) * z * Real.exp (-gs / T) = z
    rw [mul_right_comm, ← Real.exp_add]
    have : gs / T + -gs / T = 0 := by ring
    rw [this, Real.exp_zero, one_mul]

/-- Number of states of a shell, with multiplicity: all, or kept. -/
def shellTotal (mult : Label → Nat) (sh : Shell) : Nat := (sh.map fun s => mult s.label * s.dim).sum
def shellKept (mult : Label → Nat) (sh : Shell) : Nat := (sh.map fun s => mult s.label * s.kept).sum

theorem physShell_length (mult : Label → Nat) (env : Nat) (sh : Shell) :
    (physShell mult env sh).length = env * (sh.map fun s => mult s.label * (s.dim - s.min)).sum := by
  induction sh with
  | nil => simp [physShell]
  | cons s sh ih =>
    have : physShell mult env (s :: sh)
        = (s.all.flatMap fun i => List.replicate (mult s.label * env) (s.vals.absT i)) ++ physShell mult env sh := by
      simp [physShell]
    rw [this, List.length_append, ih, List.length_flatMap]
    simp only [List.length_replicate, List.map_const', List.sum_replicate, smul_eq_mul, List.map_cons,
      List.sum_cons]
    simp only [Sub.all, List.length_range', Sub.max]
    ring

/-- **C25.** Discarded states with their environment form a complete basis: if
at every step but the last the retained states times the `combs` states of the
new site give the states of the next step (C05), and only the last step counts
all its states, then the number of physical states is that of the first step
times `combs` per added site. -/
theorem complete_basis_count (mult : Label → Nat) (combs : Nat) (sh : Shell) (rest : List Shell)
    (hk : ∀ s ∈ (sh :: rest).flatten, s.kept ≤ s.dim)
    (hlast : ∀ k shk, (sh :: rest)[k]? = some shk → ∀ s ∈ shk, s.last = decide (k = rest.length))
    (hstep : ∀ (k : Nat) a b, (sh :: rest)[k]? = some a → (sh :: rest)[k+1]? = some b →
      shellTotal mult b = combs * shellKept mult a) :
    (physStates mult combs (sh :: rest)).flatten.length = shellTotal mult sh * combs ^ rest.length := by
  induction rest generalizing sh with
  | nil =>
    have hl : ∀ s ∈ sh, s.last = true := fun s hs => by simpa using hlast 0 sh rfl s hs
    simp only [physStates, List.length_nil, pow_zero, List.flatten_cons, List.flatten_nil, List.append_nil,
      physShell_length, one_mul, mul_one, shellTotal]
    congr 1
    apply List.map_congr_left
    intro s hs
    simp [Sub.min, hl s hs]
  | cons b rest ih =>
    have hl : ∀ s ∈ sh, s.last = false := fun s hs => by simpa using hlast 0 sh rfl s hs
    have h1 := ih b (fun s hs => hk s (by simp at hs ⊢; tauto))
      (fun k shk hshk s hs => by simpa using hlast (k+1) shk (by simpa using hshk) s hs)
      (fun k a c ha hc => hstep (k+1) a c (by simpa using ha) (by simpa using hc))
    have h2 := hstep 0 sh b rfl rfl
    have e : physStates mult combs (sh :: b :: rest)
        = physShell mult (combs ^ (rest.length + 1)) sh :: physStates mult combs (b :: rest) := by
      simp [physStates]
    have hadd : ∀ l : Shell, (∀ s ∈ l, s.kept ≤ s.dim) → (∀ s ∈ l, s.last = false) →
        (l.map fun s => mult s.label * (s.dim - s.min)).sum + shellKept mult l = shellTotal mult l := by
      intro l h1 h2
      induction l with
      | nil => rfl
      | cons s l ih =>
        have e1 := ih (fun s hs => h1 s (by simp [hs])) (fun s hs => h2 s (by simp [hs]))
        have e2 := h1 s (by simp)
        have e3 := h2 s (by simp)
        simp only [shellKept, shellTotal, List.map_cons, List.sum_cons, Sub.min, e3] at *
        have : mult s.label * (s.dim - s.kept) + mult s.label * s.kept = mult s.label * s.dim := by
          rw [← Nat.mul_add, Nat.sub_add_cancel e2]
        simp only [Bool.false_eq_true, if_false] at *
        omega
    have h3 := hadd sh (fun s hs => hk s (by simp [hs])) hl
    rw [e, List.flatten_cons, List.length_append, h1, h2, physShell_length, List.length_cons, ← h3, pow_succ]
    ring

/-- A stored shell made from a spectrum (`ThermoSubs`, `c++/store.hpp:37-46`),
with the numbers of kept and of all states of each subspace. -/
def toShell (kept dim : Label → Nat) (last : Bool) (d : Diag ℝ) : Shell :=
  d.map fun e => ⟨e.1, e.2, kept e.1, dim e.1, last⟩

/-- **C25.** The premise of `fdm_weights` holds for every store produced by the
first sweep: all shells are referred to the final ground state. -/
theorem sweep_consistent (E0 gs : ℝ) (steps : List (ℝ × Diag ℝ)) (h : ∀ s ∈ steps, WF s.2)
    (store : List (Diag ℝ)) (hr : runNrg E0 steps = some (gs, store)) (d : Diag ℝ) (hd : d ∈ store)
    (kept dim : Label → Nat) (last : Bool) : Consistent gs (toShell kept dim last d) := by
  obtain ⟨gl, k1, saved, k2, k3, k4⟩ := firstSweep_spec E0 steps h
  simp only [runNrg, k2, Option.bind_eq_bind, Option.bind_some, Option.pure_def, Option.some.injEq,
    Prod.mk.injEq] at hr
  obtain ⟨hgs, rfl⟩ := hr
  obtain ⟨d0, hd0, rfl⟩ := List.mem_map.1 hd
  obtain ⟨n, hn⟩ := List.getElem?_of_mem hd0
  have hn1 : n < steps.length := by rw [← k3]; exact (List.getElem?_eq_some_iff.1 hn).1
  have hn2 : n < gl.length := by rw [← k1.length_eq]; exact hn1
  have e := k4 n _ _ (List.getElem?_eq_getElem hn1) (List.getElem?_eq_getElem hn2)
  rw [hn, Option.some.injEq] at e
  rw [e, hgs]
  generalize E0 + _ = t
  refine ⟨t, ?_⟩
  intro s hs
  simp only [toShell, subtractGS, referenced, List.map_map, List.mem_map, Function.comp] at hs
  obtain ⟨a, _, rfl⟩ := hs
  exact ⟨rfl, rfl⟩

/-! ## C50 -/

/-- The physical states of the shells whose weight exceeds the threshold. -/
noncomputable def usedStates (pss : List (List ℝ)) (wn : List ℝ) : List ℝ :=
  open Classical in (pss.zip wn).flatMap fun p => if p.2 > wnTol then p.1 else []

theorem fdmSum_eq (T gs : ℝ) (mult : Label → Nat) (combs : Nat) (hc : 0 < combs) (z : ℝ) (f : ℝ → ℝ)
    (store : List Shell) (h : ∀ sh ∈ store, Consistent gs sh) (st : FdmStats)
    (hwn : st.wn = (physStates mult combs store).map (fun es => Spec.Z T es / z))
    (hN : st.ZnDN = store.map (shellSum mult fun s i => Real.exp (-(s.vals.absZero i) / T))) :
    fdmSum T mult st store f
      = ((usedStates (physStates mult combs store) st.wn).map fun e => Real.exp (-e / T) / z * f e).sum := by
  unfold fdmSum usedStates
  rw [hwn, hN]
  clear hwn hN st
  induction store with
  | nil => simp [physStates]
  | cons sh rest ih =>
    simp only [physStates, List.map_cons, List.zip_cons_cons, List.sum_cons, List.flatMap_cons, List.map_append,
      List.sum_append]
    rw [ih fun s hs => h s (by simp [hs])]
    congr 1
    split_ifs with hw
    · obtain ⟨t, h1, h2⟩ := shellSum_absZero T gs mult sh (h sh (by simp)) f
      rw [physShell_sum, h2, Z_physShell] at *
      have hZne : shellZ T mult sh ≠ 0 := by
        intro h0
        rw [h0] at hw
        simp [wnTol] at hw
        have : (0:ℝ) ≤ (10 ^ 16)⁻¹ := by positivity
        linarith
      have e1 : shellSum mult (fun s i => ↑(combs ^ rest.length) * shellZ T mult sh / z *
          Real.exp (-(s.vals.absZero i) / T) / (Real.exp (t / T) * shellZ T mult sh) * f (s.vals.absT i)) sh
          = (↑(combs ^ rest.length) * shellZ T mult sh / z / (Real.exp (t / T) * shellZ T mult sh)) *
            shellSum mult (fun s i => Real.exp (-(s.vals.absZero i) / T) * f (s.vals.absT i)) sh := by
        rw [← shellSum_smul]
        apply shellSum_congr
        intro s _ i
        ring
      have e2 : shellSum mult (fun s i => Real.exp (-(s.vals.absT i) / T) / z * f (s.vals.absT i)) sh
          = z⁻¹ * shellSum mult (fun s i => Real.exp (-(s.vals.absT i) / T) * f (s.vals.absT i)) sh := by
        rw [← shellSum_smul]
        apply shellSum_congr
        intro s _ i
        ring
      rw [e1, h1, e2]
      have he := (Real.exp_pos (t / T)).ne'
      by_cases hz : z = 0
      · subst hz; simp
      · field_simp
    · simp

theorem calcZnD_ZnDN (T : ℝ) (mult : Label → Nat) (combs : Nat) (store : List Shell) (st : FdmStats)
    (h : calcZnD T mult combs store = some st) :
    st.ZnDN = store.map (shellSum mult fun s i => Real.exp (-(s.vals.absZero i) / T)) := by
  simp only [calcZnD] at h
  split_ifs at h
  rw [← Option.some.inj h]

theorem sum_used_le (T : ℝ) (pss : List (List ℝ)) (wn : List ℝ) :
    ((usedStates pss wn).map fun e => Real.exp (-e / T)).sum ≤ Spec.Z T pss.flatten := by
  unfold usedStates
  induction pss generalizing wn with
  | nil => simp [Spec.Z]
  | cons a pss ih =>
    cases wn with
    | nil => simpa using Spec.Z_nonneg T _
    | cons w wn =>
      simp only [List.zip_cons_cons, List.flatMap_cons, List.map_append, List.sum_append, List.flatten_cons,
        Spec.Z_append]
      apply add_le_add _ (ih wn)
      split_ifs
      · exact le_refl _
      · simpa using Spec.Z_nonneg T a

/-- **C50.** The heat capacity of the full-density-matrix calculation is
non-negative for every history and temperature, even when shells of tiny weight
are skipped; and `F = E - T S`. -/
theorem fdm_heat_capacity_nonneg (T gs : ℝ) (hT : T ≠ 0) (mult : Label → Nat) (combs : Nat) (hc : 0 < combs)
    (store : List Shell) (h : ∀ sh ∈ store, Consistent gs sh)
    (hne : (physStates mult combs store).flatten ≠ []) (st : FdmStats)
    (hst : calcZnD T mult combs store = some st) :
    0 ≤ (fdmThermodynamics T mult gs st store).C ∧
    (fdmThermodynamics T mult gs st store).F =
      (fdmThermodynamics T mult gs st store).E - T * (fdmThermodynamics T mult gs st store).S := by
  constructor
  · obtain ⟨st', h1, h2, _⟩ := fdm_weights T gs mult combs store h hne
    rw [hst] at h1
    obtain rfl := Option.some.inj h1
    have hz := Spec.Z_pos T _ hne
    have hN := calcZnD_ZnDN T mult combs store st hst
    simp only [fdmThermodynamics]
    apply div_nonneg _ (sq_nonneg T)
    rw [fdmSum_eq T gs mult combs hc _ _ store h st h2 hN, fdmSum_eq T gs mult combs hc _ _ store h st h2 hN]
    have := Spec.sq_sum_le (usedStates (physStates mult combs store) st.wn)
      (fun e => Real.exp (-e / T) / Spec.Z T (physStates mult combs store).flatten) id
      (fun e _ => div_nonneg (Real.exp_pos _).le hz.le) (by
        have e := Spec.sum_map_mul_right' (usedStates (physStates mult combs store) st.wn)
          (Spec.Z T (physStates mult combs store).flatten)⁻¹ (fun e => Real.exp (-e / T))
        simp only [← div_eq_mul_inv] at e
        rw [e, div_le_one hz]
        exact sum_used_le T _ _)
    simp only [id] at this ⊢
    linarith [this, sq (((usedStates (physStates mult combs store) st.wn).map fun e =>
      Real.exp (-e / T) / Spec.Z T (physStates mult combs store).flatten * e).sum)]
  · simp only [fdmThermodynamics]
    field_simp
    ring

theorem usedStates_all (pss : List (List ℝ)) (wn : List ℝ) (hl : wn.length = pss.length)
    (h : ∀ p ∈ pss.zip wn, p.2 > wnTol ∨ p.1 = []) : usedStates pss wn = pss.flatten := by
  unfold usedStates
  induction pss generalizing wn with
  | nil => simp
  | cons a pss ih =>
    cases wn with
    | nil => simp at hl
    | cons w wn =>
      simp only [List.zip_cons_cons, List.flatMap_cons, List.flatten_cons]
      rw [ih wn (by simpa using hl) fun p hp => h p (by simp [hp])]
      congr 1
      rcases h (a, w) (by simp) with h | h
      · simp only [gt_iff_lt] at h; simp [h]
      · simp only at h; subst h; simp

/-- **C50.** When no shell is skipped, the reported quantities are those of the
canonical ensemble of the physical states: `E` the mean energy, `F = -T log Z`,
`S` the Gibbs entropy, `C` the energy variance over `T²`. -/
theorem fdm_thermodynamics_exact (T gs : ℝ) (hT : T ≠ 0) (mult : Label → Nat) (combs : Nat) (hc : 0 < combs)
    (store : List Shell) (h : ∀ sh ∈ store, Consistent gs sh)
    (hne : (physStates mult combs store).flatten ≠ []) (st : FdmStats)
    (hst : calcZnD T mult combs store = some st)
    (hskip : ∀ p ∈ (physStates mult combs store).zip st.wn, p.2 > wnTol ∨ p.1 = []) :
    let es := (physStates mult combs store).flatten
    let td := fdmThermodynamics T mult gs st store
    td.Z = Spec.Z T es ∧ td.E = Spec.mean T es id ∧ td.F = -T * Real.log (Spec.Z T es) ∧
    td.S = Spec.entropy T es ∧ td.C = Spec.variance T es / T ^ 2 := by
  intro es td
  obtain ⟨st', h1, h2, h3, h4, h5⟩ := fdm_weights T gs mult combs store h hne
  rw [hst] at h1
  obtain rfl := Option.some.inj h1
  have hz := Spec.Z_pos T _ hne
  have hN := calcZnD_ZnDN T mult combs store st hst
  have hused : usedStates (physStates mult combs store) st.wn = es :=
    usedStates_all _ _ (by rw [h2, List.length_map]) hskip
  have hsum : ∀ f, fdmSum T mult st store f = Spec.mean T es f := by
    intro f
    rw [fdmSum_eq T gs mult combs hc _ f store h st h2 hN, hused]
    rfl
  have hE : td.E = Spec.mean T es id := hsum id
  have hF : td.F = -T * Real.log (Spec.Z T es) := by
    change -Real.log st.ZZG * T + gs = _
    have : st.ZZG = Real.exp (gs / T) * Spec.Z T es := by
      rw [← h5, mul_comm, mul_assoc, ← Real.exp_add]
      have : -gs / T + gs / T = 0 := by ring
      rw [this, Real.exp_zero, mul_one]
    rw [this, Real.log_mul (Real.exp_pos _).ne' hz.ne', Real.log_exp]
    field_simp
    ring
  refine ⟨h5, hE, hF, ?_, ?_⟩
  · have : td.S = (td.E - td.F) / T := rfl
    rw [this, hE, hF, Spec.entropy_eq T hT es hne]
    field_simp
    ring
  · have : td.C = (fdmSum T mult st store (fun e => e * e) - td.E * td.E) / T ^ 2 := rfl
    rw [this, hE, hsum, Spec.variance_eq T es hne]
    simp only [sq]

/-- The reduced energies (in units of the temperature) of all states of a step,
degenerate components listed separately. -/
noncomputable def tdStates (mult : Label → Nat) (factor : ℝ) (d : Diag ℝ) : List ℝ :=
  d.flatMap fun e => e.2.allRelZero.flatMap fun x => List.replicate (mult e.1) (factor * x)

theorem trace_eq (mult : Label → Nat) (factor : ℝ) (d : Diag ℝ) (f : ℝ → ℝ) :
    trace mult f factor d = ((tdStates mult factor d).map fun e => Real.exp (-e / 1) * f e).sum := by
  rw [tdStates, sum_flatMap, trace]
  congr 1
  apply List.map_congr_left
  intro e _
  rw [sum_flatMap, ← Spec.sum_map_mul_left']
  congr 1
  apply List.map_congr_left
  intro x _
  simp only [List.map_replicate, List.sum_replicate, nsmul_eq_mul, div_one]
  ring

/-- **C50.** The thermodynamic columns of one step are those of the canonical
ensemble of its states: mean and mean square of the reduced energy, variance
(non-negative) for the heat capacity, `-log Z` for the free energy, Gibbs entropy
(non-negative) for the entropy, and `F = E - S`. -/
theorem td_canonical (mult : Label → Nat) (factor : ℝ) (d : Diag ℝ) (hne : tdStates mult factor d ≠ []) :
    let es := tdStates mult factor d
    let td := calculateTD mult factor d
    td.Z = Spec.Z 1 es ∧ td.E = Spec.mean 1 es id ∧ td.E2 = Spec.mean 1 es (fun e => e ^ 2) ∧
    td.C = Spec.variance 1 es ∧ 0 ≤ td.C ∧ td.F = -Real.log (Spec.Z 1 es) ∧
    td.S = Spec.entropy 1 es ∧ 0 ≤ td.S ∧ td.F = td.E - td.S := by
  intro es td
  have hZ : td.Z = Spec.Z 1 es := by
    change trace mult (fun _ => 1) factor d = _
    rw [trace_eq]; simp [Spec.Z, es]
  have hE : td.E = Spec.mean 1 es id := by
    change trace mult (fun x => x) factor d / td.Z = _
    rw [trace_eq, hZ, Spec.mean_eq_div]; rfl
  have hE2 : td.E2 = Spec.mean 1 es (fun e => e ^ 2) := by
    change trace mult (fun x => x ^ 2) factor d / td.Z = _
    rw [trace_eq, hZ, Spec.mean_eq_div]
  have hC : td.C = Spec.variance 1 es := by
    have : td.C = td.E2 - td.E ^ 2 := rfl
    rw [this, hE2, hE, Spec.variance_eq 1 es hne]
  have hF : td.F = -Real.log (Spec.Z 1 es) := by
    have : td.F = -Real.log td.Z := rfl
    rw [this, hZ]
  have hS : td.S = Spec.entropy 1 es := by
    have : td.S = td.E + Real.log td.Z := rfl
    rw [this, hE, hZ, Spec.entropy_eq 1 one_ne_zero es hne, div_one]
  refine ⟨hZ, hE, hE2, hC, by rw [hC]; exact Spec.variance_nonneg 1 es, hF, hS,
    by rw [hS]; exact Spec.entropy_nonneg 1 es, ?_⟩
  rw [hF, hE, hS, Spec.entropy_eq 1 one_ne_zero es hne]
  ring

/-! ## C28 -/

/-- Energies (in units of the step's scale) of all retained states at the last
step, degenerate components listed separately, in units of temperature. -/
noncomputable def lastStates (mult : Label → Nat) (scT : ℝ) (d : List LastSub) : List ℝ :=
  d.flatMap fun s => (s.corr.take s.kept).flatMap fun x => List.replicate (mult s.label) (scT * x)

theorem grandCanonicalZ_eq (mult : Label → Nat) (scT : ℝ) (d : List LastSub) :
    grandCanonicalZ mult scT d = Spec.Z 1 (lastStates mult scT d) := by
  rw [grandCanonicalZ, Spec.Z, lastStates, sum_flatMap]
  congr 1
  apply List.map_congr_left
  intro s _
  rw [sum_flatMap, sumOfExp, ← Spec.sum_map_mul_left']
  congr 1
  apply List.map_congr_left
  intro x _
  simp

/-- **C28.** At the last step, after truncation (kept = stored), the initial
density matrix has multiplicity-weighted trace one, is diagonal, its diagonal
entries are the canonical probabilities of the states, lie in `(0,1]`, and lower
energies have at least the weight of higher ones. -/
theorem init_rho_normalised (mult : Label → Nat) (scT : ℝ) (hT : 0 ≤ scT) (d : List LastSub)
    (hm : ∀ s ∈ d, 0 < mult s.label) (hk : ∀ s ∈ d, s.kept = s.stored ∧ s.stored ≤ s.corr.length)
    (hne : ∃ s ∈ d, 0 < s.stored) :
    (d.map fun s => (mult s.label : ℝ) * ((List.range s.stored).map fun i => initRho mult scT d s i i).sum).sum = 1 ∧
    ∀ s ∈ d, (∀ i j, i ≠ j → initRho mult scT d s i j = 0) ∧
      (∀ i < s.stored, initRho mult scT d s i i = Spec.prob 1 (lastStates mult scT d) (scT * s.corr.getD i 0) ∧
        0 < initRho mult scT d s i i ∧ initRho mult scT d s i i ≤ 1) ∧
      (∀ s' ∈ d, ∀ i j, i < s.stored → j < s'.stored → s.corr.getD i 0 ≤ s'.corr.getD j 0 →
        initRho mult scT d s' j j ≤ initRho mult scT d s i i) := by
  have hmem : ∀ s ∈ d, ∀ i < s.stored, scT * s.corr.getD i 0 ∈ lastStates mult scT d := by
    intro s hs i hi
    have hc : i < s.corr.length := lt_of_lt_of_le hi (hk s hs).2
    have ht : i < (s.corr.take s.kept).length := by rw [List.length_take, (hk s hs).1]; omega
    rw [lastStates, List.mem_flatMap]
    refine ⟨s, hs, ?_⟩
    rw [List.mem_flatMap]
    refine ⟨s.corr.getD i 0, ?_, ?_⟩
    · rw [List.getD_eq_getElem?_getD, List.getElem?_eq_getElem hc, Option.getD_some]
      have : (s.corr.take s.kept)[i] = s.corr[i] := List.getElem_take
      rw [← this]; exact List.getElem_mem _
    · rw [List.mem_replicate]; exact ⟨(hm s hs).ne', rfl⟩
  have hnl : lastStates mult scT d ≠ [] := by
    obtain ⟨s, hs, hp⟩ := hne
    exact List.ne_nil_of_mem (hmem s hs 0 hp)
  have hZ := Spec.Z_pos 1 _ hnl
  have hprob : ∀ s i, initRho mult scT d s i i = Spec.prob 1 (lastStates mult scT d) (scT * s.corr.getD i 0) := by
    intro s i
    rw [initRho, Spec.prob, grandCanonicalZ_eq]
    simp only [if_true, div_one]
    congr 2; ring
  constructor
  · have e : ∀ s ∈ d, (mult s.label : ℝ) * ((List.range s.stored).map fun i => initRho mult scT d s i i).sum
        = (mult s.label : ℝ) * sumOfExp scT (s.corr.take s.kept) * (grandCanonicalZ mult scT d)⁻¹ := by
      intro s hs
      rw [mul_assoc]
      congr 1
      rw [sumOfExp, ← Spec.sum_map_mul_right']
      have : s.corr.take s.kept = (List.range s.stored).map fun i => s.corr.getD i 0 := by
        apply List.ext_getElem
        · simp only [List.length_take, List.length_map, List.length_range]; have := hk s hs; omega
        · intro i h1 h2
          have hi : i < s.corr.length := by simp at h1; omega
          simp [List.getElem?_eq_getElem hi]
      rw [this, List.map_map]
      congr 1
      apply List.map_congr_left
      intro i _
      simp only [Function.comp, initRho, if_true, div_eq_mul_inv]
      congr 2; ring
    rw [List.map_congr_left e, Spec.sum_map_mul_right']
    change grandCanonicalZ mult scT d * _ = 1
    rw [grandCanonicalZ_eq]
    exact mul_inv_cancel₀ hZ.ne'
  · intro s hs
    refine ⟨fun i j hij => by simp [initRho, hij], ?_, ?_⟩
    · intro i hi
      rw [hprob]
      exact ⟨rfl, Spec.prob_pos 1 _ _ hnl, Spec.prob_le_one 1 _ _ (hmem s hs i hi)⟩
    · intro s' _ i j _ _ hle
      rw [hprob, hprob, Spec.prob, Spec.prob]
      apply div_le_div_of_nonneg_right _ hZ.le
      apply Real.exp_le_exp.2
      have := mul_le_mul_of_nonneg_left hle hT
      linarith

/-! ### The hypotheses are met by non-trivial histories -/

section
noncomputable def v₁ : Values ℝ := ⟨[0, 1], 1, 0, 5, 3⟩
noncomputable def v₂ : Values ℝ := ⟨[2, 4], 1 / 2, 2, 3, 3⟩
/-- Two shells: in the first, one of two states is discarded; the second is the last. -/
noncomputable def exStore : List Shell := [[⟨[0, 2], v₁, 1, 2, false⟩], [⟨[1, 1], v₂, 2, 2, true⟩]]

example : ∀ sh ∈ exStore, Consistent 3 sh := by
  simp [exStore, Consistent, v₁, v₂]

example : (physStates (fun _ => 1) 2 exStore).flatten = [6, 6, 3, 4] := by
  simp [physStates, exStore, physShell, Sub.all, Sub.min, Sub.max, v₁, v₂, Values.absT, Values.absZero, Values.rel,
    List.range', List.replicate]
  norm_num

/-- … and it is a complete basis in the sense of `complete_basis_count`. -/
example : (physStates (fun _ => 1) 2 exStore).flatten.length = 2 * 2 ^ 1 := by
  refine complete_basis_count (fun _ => 1) 2 _ _ (by simp) ?_ ?_
  · intro k shk h s hs
    match k, h with
    | 0, h => simp at h; subst h; simp at hs; subst hs; rfl
    | 1, h => simp at h; subst h; simp at hs; subst hs; rfl
    | k + 2, h => simp at h
  · intro k a b ha hb
    match k, ha, hb with
    | 0, ha, hb => simp at ha hb; subst ha; subst hb; rfl
    | k + 1, ha, hb => simp at hb

example : tdStates (fun _ => 2) 1 [([0, 2], v₁)] = [0, 0, 1, 1] := by
  simp [tdStates, v₁, Values.allRelZero, List.replicate]

example : ∃ s ∈ [(⟨[0, 2], [0, 1], 2, 2⟩ : LastSub)], 0 < s.stored := by simp
end

end Verif.Thermo
