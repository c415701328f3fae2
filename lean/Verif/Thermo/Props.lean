import Verif.Thermo.Lemmas
import Mathlib.Data.List.Forall2
/-!
# C24, C25, C28, C50
-/

namespace Verif.Thermo
open Verif.Invar

/-! ## C24: energy bookkeeping -/

section Energies
variable {K : Type} [Field K] [LinearOrder K]

/-- What the diagonalisation hands over (C12, C60): at least one subspace, no
empty spectrum, ascending eigenvalues. -/
def WF (d : Diag K) : Prop := d ≠ [] ∧ ∀ e ∈ d, e.2.v ≠ [] ∧ e.2.v.Pairwise (· ≤ ·)

theorem foldl_min_spec (xs : List K) (x : K) :
    (xs.foldl min x = x ∨ xs.foldl min x ∈ xs) ∧ xs.foldl min x ≤ x ∧ ∀ y ∈ xs, xs.foldl min x ≤ y := by
  induction xs generalizing x with
  | nil => simp
  | cons a xs ih =>
    obtain ⟨h1, h2, h3⟩ := ih (min x a)
    simp only [List.foldl_cons, List.mem_cons, forall_eq_or_imp]
    refine ⟨?_, h2.trans (min_le_left _ _), h2.trans (min_le_right _ _), h3⟩
    rcases h1 with h | h
    · rw [h]
      rcases min_choice x a with h | h
      · left; exact h
      · right; left; exact h
    · right; right; exact h

theorem mapM_lowest (d : Diag K) (h : ∀ e ∈ d, e.2.v ≠ []) :
    ∃ ls, d.mapM (fun e => e.2.lowestRel) = some ls ∧ List.Forall₂ (fun e l => e.2.v.head? = some l) d ls := by
  induction d with
  | nil => exact ⟨[], rfl, .nil⟩
  | cons e d ih =>
    obtain ⟨ls, h1, h2⟩ := ih fun e' he' => h e' (by simp [he'])
    obtain ⟨a, ha⟩ : ∃ a, e.2.v.head? = some a := by
      cases hv : e.2.v with
      | nil => exact absurd hv (h e (by simp))
      | cons a t => exact ⟨a, rfl⟩
    refine ⟨a :: ls, ?_, .cons ha h2⟩
    rw [List.mapM_cons, h1]
    simp [Values.lowestRel, ha]

theorem findEgs_spec (d : Diag K) (h : WF d) : ∃ g, findEgs d = some g ∧ IsGround d g := by
  obtain ⟨ls, h1, h2⟩ := mapM_lowest d fun e he => (h.2 e he).1
  have hmem : ∀ l ∈ ls, ∃ e ∈ d, e.2.v.head? = some l := by
    intro l hl
    obtain ⟨i, hi, rfl⟩ := List.getElem_of_mem hl
    have hi' : i < d.length := by rw [h2.length_eq]; exact hi
    exact ⟨d[i], List.getElem_mem _, (List.forall₂_iff_get.1 h2).2 i hi' hi⟩
  have hmem' : ∀ e ∈ d, ∃ l ∈ ls, e.2.v.head? = some l := by
    intro e he
    obtain ⟨i, hi, rfl⟩ := List.getElem_of_mem he
    have hi' : i < ls.length := by rw [← h2.length_eq]; exact hi
    exact ⟨ls[i], List.getElem_mem _, (List.forall₂_iff_get.1 h2).2 i hi hi'⟩
  cases hls : ls with
  | nil =>
    subst hls
    cases d with
    | nil => exact absurd rfl h.1
    | cons e d => obtain ⟨l, hl, _⟩ := hmem' e (by simp); simp at hl
  | cons a t =>
    refine ⟨t.foldl min a, by simp [findEgs, h1, hls, minOf], ?_⟩
    obtain ⟨k1, k2, k3⟩ := foldl_min_spec t a
    constructor
    · have : t.foldl min a ∈ ls := by
        rw [hls]
        rcases k1 with k | k
        · rw [k]; simp
        · simp [k]
      obtain ⟨e, he, hh⟩ := hmem _ this
      exact ⟨e, he, List.mem_of_mem_head? (by rw [hh]; rfl)⟩
    · intro e he x hx
      obtain ⟨l, hl, hh⟩ := hmem' e he
      have h4 : t.foldl min a ≤ l := by
        rw [hls] at hl
        rcases List.mem_cons.1 hl with rfl | hl
        · exact k2
        · exact k3 _ hl
      refine h4.trans ?_
      have hs := (h.2 e he).2
      cases hv : e.2.v with
      | nil => rw [hv] at hx; simp at hx
      | cons b s =>
        rw [hv] at hh hs hx
        simp only [List.head?_cons, Option.some.injEq] at hh
        subst hh
        rcases List.mem_cons.1 hx with rfl | hx
        · exact le_refl _
        · exact (List.pairwise_cons.1 hs).1 _ hx

/-- The spectrum of a step with its reference energies set. -/
def referenced (scale g total : K) (d : Diag K) : Diag K :=
  d.map fun e => (e.1, { e.2 with shift := g, scale := scale, tShift := total })

theorem firstSweep_spec (total : K) (steps : List (K × Diag K)) (h : ∀ s ∈ steps, WF s.2) :
    ∃ gl : List K, List.Forall₂ (fun (s : K × Diag K) g => findEgs s.2 = some g ∧ IsGround s.2 g) steps gl ∧
      ∃ saved, firstSweep total steps
        = some (total + ((steps.zip gl).map fun p => p.2 * p.1.1).sum, saved) ∧
      saved.length = steps.length ∧
      ∀ n s g, steps[n]? = some s → gl[n]? = some g → saved[n]? = some
        (referenced s.1 g (total + (((steps.zip gl).take (n+1)).map fun p => p.2 * p.1.1).sum) s.2) := by
  induction steps generalizing total with
  | nil => exact ⟨[], .nil, [], by simp [firstSweep], rfl, by simp⟩
  | cons s ss ih =>
    obtain ⟨g, hg1, hg2⟩ := findEgs_spec s.2 (h s (by simp))
    obtain ⟨gl, k1, saved, k2, k3, k4⟩ := ih (total + g * s.1) fun s' hs' => h s' (by simp [hs'])
    refine ⟨g :: gl, .cons ⟨hg1, hg2⟩ k1, referenced s.1 g (total + g * s.1) s.2 :: saved, ?_, ?_, ?_⟩
    · simp [firstSweep, nrgStep, hg1, k2, referenced, setShift, Function.comp_def, add_assoc]
    · simp [k3]
    · intro n s' g' hs' hg'
      cases n with
      | zero =>
        simp only [List.getElem?_cons_zero, Option.some.injEq] at hs' hg'
        subst hs'; subst hg'
        simp
      | succ n =>
        simp only [List.getElem?_cons_succ] at hs' hg' ⊢
        rw [k4 n s' g' hs' hg']
        simp [add_assoc]

variable [IsStrictOrderedRing K]

/-- **C24.** After the first sweep over any sequence of spectra and scales there
is a list of ground-state shifts (the lowest eigenvalue of each step times its
scale) such that for every state of every step

* its total energy is its eigenvalue times the scale plus the input energy plus
  all *earlier* shifts,
* its energy above the lowest state of its step is non-negative, and zero is
  attained in every step,
* the energy referred to the final ground state is the total energy minus one
  constant, the same for all states of all steps, which is the input energy
  plus all shifts. -/
theorem energies_consistent (E0 : K) (steps : List (K × Diag K)) (h : ∀ s ∈ steps, WF s.2)
    (hs : ∀ s ∈ steps, 0 < s.1) :
    ∃ shifts : List K,
      List.Forall₂ (fun (s : K × Diag K) e => ∃ g, IsGround s.2 g ∧ e = g * s.1) steps shifts ∧
      ∃ store, runNrg E0 steps = some (E0 + shifts.sum, store) ∧ store.length = steps.length ∧
      ∀ n s, steps[n]? = some s → ∃ d', store[n]? = some d' ∧ d'.length = s.2.length ∧
        (∀ (k : Nat) (I : Label) (x : Values K), s.2[k]? = some (I, x) → ∃ x', d'[k]? = some (I, x') ∧ x'.v = x.v ∧
          ∀ i < x.v.length,
            x'.absT i = x.rel i * s.1 + E0 + (shifts.take n).sum ∧
            0 ≤ x'.absZero i ∧
            x'.absG i = x'.absT i - (E0 + shifts.sum)) ∧
        (∃ (k : Nat) (I : Label) (x' : Values K) (i : Nat), d'[k]? = some (I, x') ∧ i < x'.v.length ∧ x'.absZero i = 0) := by
  obtain ⟨gl, k1, saved, k2, k3, k4⟩ := firstSweep_spec E0 steps h
  have hlen := k1.length_eq
  have hsum : ∀ n, (((steps.zip gl).map fun p => p.2 * p.1.1).take n) =
      (((steps.zip gl).take n).map fun p => p.2 * p.1.1) := fun n => List.map_take.symm
  refine ⟨(steps.zip gl).map fun p => p.2 * p.1.1, ?_, saved.map (subtractGS (E0 + ((steps.zip gl).map fun p => p.2 * p.1.1).sum)), ?_, by simp [k3], ?_⟩
  · rw [List.forall₂_iff_get]
    refine ⟨by simp [hlen], ?_⟩
    intro i hi hi'
    have hi2 : i < gl.length := by rw [← hlen]; exact hi
    refine ⟨gl[i], ((List.forall₂_iff_get.1 k1).2 i hi hi2).2, by simp⟩
  · simp [runNrg, k2]
  · intro n s hn
    have hn' : n < steps.length := (List.getElem?_eq_some_iff.1 hn).1
    have hng : n < gl.length := by rw [← hlen]; exact hn'
    have hg : gl[n]? = some gl[n] := List.getElem?_eq_getElem hng
    generalize gl[n] = g at hg
    have hground : IsGround s.2 g := by
      have := (List.forall₂_iff_get.1 k1).2 n hn' hng
      rw [List.getElem?_eq_getElem hn', Option.some.injEq] at hn
      rw [List.getElem?_eq_getElem hng, Option.some.injEq] at hg
      simp only [List.get_eq_getElem] at this
      rw [hn, hg] at this
      exact this.2
    have hpos := hs s (List.mem_of_getElem? hn)
    have htake : (((steps.zip gl).take (n+1)).map fun p => p.2 * p.1.1).sum
        = (((steps.zip gl).map fun p => p.2 * p.1.1).take n).sum + g * s.1 := by
      rw [hsum, List.take_add_one, List.map_append, List.sum_append]
      congr 1
      have : (steps.zip gl)[n]? = some (s, g) := by rw [List.getElem?_zip_eq_some]; exact ⟨hn, hg⟩
      simp [this]
    have hd := k4 n s g hn hg
    rw [htake] at hd
    refine ⟨_, by rw [List.getElem?_map, hd]; rfl, by simp [subtractGS, referenced], ?_, ?_⟩
    · intro k I x hk
      refine ⟨⟨x.v, s.1, g, E0 + ((((steps.zip gl).map fun p => p.2 * p.1.1).take n).sum + g * s.1), E0 + ((steps.zip gl).map fun p => p.2 * p.1.1).sum⟩,
        by simp only [subtractGS, referenced, List.getElem?_map, hk, Option.map_some], rfl, ?_⟩
      intro i hi
      refine ⟨?_, ?_, ?_⟩
      · simp only [Values.absT, Values.absZero, Values.rel]; ring
      · simp only [Values.absZero, Values.rel]
        apply mul_nonneg _ hpos.le
        rw [sub_nonneg]
        apply hground.2 (I, x) (List.mem_of_getElem? hk)
        rw [List.getD_eq_getElem?_getD, List.getElem?_eq_getElem hi]
        exact List.getElem_mem _
      · simp only [Values.absG]
    · obtain ⟨e, he, hge⟩ := hground.1
      obtain ⟨k, hk⟩ := List.getElem?_of_mem he
      obtain ⟨i, hi, hgi⟩ := List.getElem_of_mem hge
      refine ⟨k, e.1, ⟨e.2.v, s.1, g, E0 + ((((steps.zip gl).map fun p => p.2 * p.1.1).take n).sum + g * s.1), E0 + ((steps.zip gl).map fun p => p.2 * p.1.1).sum⟩, i,
        by simp only [subtractGS, referenced, List.getElem?_map, hk, Option.map_some], hi, ?_⟩
      simp only [Values.absZero, Values.rel, List.getD_eq_getElem?_getD, List.getElem?_eq_getElem hi, hgi,
        Option.getD_some, sub_self, zero_mul]

/-- **C24.** The second sweep works with the same energies: reading back the
spectrum written in the first sweep and setting its references again gives the
spectrum in the energy store. -/
theorem second_sweep_same (E0 : K) (steps : List (K × Diag K)) (h : ∀ s ∈ steps, WF s.2)
    (gs : K) (saved store : List (Diag K)) (h1 : firstSweep E0 steps = some (gs, saved))
    (h2 : runNrg E0 steps = some (gs, store)) (n : Nat) (d : Diag K) (hd : saved[n]? = some d) :
    secondSweepLoad gs d = store[n]? := by
  obtain ⟨gl, k1, saved', k2, k3, k4⟩ := firstSweep_spec E0 steps h
  rw [k2] at h1
  obtain ⟨hgs, rfl⟩ := Prod.mk.inj (Option.some.inj h1)
  have hst : store = saved'.map (subtractGS gs) := by
    simp only [runNrg, k2, Option.bind_eq_bind, Option.bind_some, Option.pure_def] at h2
    rw [hgs] at h2
    exact (Prod.mk.inj (Option.some.inj h2)).2.symm
  have hn : n < steps.length := by rw [← k3]; exact (List.getElem?_eq_some_iff.1 hd).1
  have hng : n < gl.length := by rw [← k1.length_eq]; exact hn
  have e := k4 n _ _ (List.getElem?_eq_getElem hn) (List.getElem?_eq_getElem hng)
  rw [hd] at e
  have hf := ((List.forall₂_iff_get.1 k1).2 n hn hng).1
  simp only [List.get_eq_getElem] at hf
  generalize gl[n] = g at *
  generalize steps[n] = s at *
  generalize E0 + _ = t at e
  have e := Option.some.inj e
  have hfind : findEgs (subtractGS gs d) = some g := by
    rw [← hf, e]
    unfold findEgs
    have : (fun e : Label × Values K => e.2.lowestRel) ∘ (fun e : Label × Values K => (e.1, { e.2 with absGS := gs }))
        = fun e => e.2.lowestRel := rfl
    simp only [subtractGS, referenced, List.map_map, List.mapM_map]
    rfl
  simp only [secondSweepLoad, hfind, Option.bind_eq_bind, Option.bind_some, hst, List.getElem?_map, hd,
    Option.map_some, Option.pure_def]
  congr 1
  rw [e]
  simp [subtractGS, setShift, referenced, Function.comp_def]

end Energies

/-- Two steps, two subspaces: shifts -3·1 and 1·(1/2). -/
example : runNrg (10 : ℚ)
    [(1, [([0,1], ⟨[-3, 2], 99, 98, 97, 96⟩), ([1,2], ⟨[-1], 99, 98, 97, 96⟩)]),
     (1/2, [([0,1], ⟨[1, 5], 99, 98, 97, 96⟩)])] =
    some (15/2, [[([0,1], ⟨[-3, 2], 1, -3, 7, 15/2⟩), ([1,2], ⟨[-1], 1, -3, 7, 15/2⟩)],
     [([0,1], ⟨[1, 5], 1/2, 1, 15/2, 15/2⟩)]]) := by decide +kernel

end Verif.Thermo
