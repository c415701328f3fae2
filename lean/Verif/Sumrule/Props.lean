import Verif.Sumrule.ScalarLemmas
/-!
# C77: expectation values in the full density matrix
-/

namespace Verif.Sumrule
open Verif.Invar Verif.Symm Verif.Mat Verif.Dm Finset
variable {𝕜 : Type} [RCLike 𝕜]

theorem sum_all' (d : Thermo.Sub) (f : ℕ → 𝕜) :
    ∑ i ∈ range d.max, (open Classical in if i ∈ d.all then f i else 0) = (d.all.map f).sum := by
  classical
  rw [← sum_filter]
  have hn : d.all.Nodup := by
    simp only [Thermo.Sub.all]; exact List.nodup_range'
  have hf : (range d.max).filter (fun i => i ∈ d.all) = d.all.toFinset := by
    ext i
    simp only [mem_filter, mem_range, List.mem_toFinset, Thermo.Sub.all, List.mem_range'_1]
    omega
  rw [hf, List.sum_toFinset _ hn]

/-- The contribution of the discarded states, as the density matrix the sweep adds. -/
theorem expect_init (S : Symmetry) (T : ℝ) (s : FShell 𝕜) (O : Ops.Elements 𝕜) :
    expect S (initRhoFDM T s) (diagonalOf O) = discardedPart S T s O := by
  classical
  unfold expect discardedPart initRhoFDM
  rw [List.map_map]
  congr 1
  apply List.map_congr_left
  intro d _
  simp only [Function.comp_def]
  rw [List.sum_map_mul_left, ← sum_all']
  congr 1
  refine sum_congr rfl fun a ha => ?_
  rw [sum_eq_single a]
  · by_cases h : a ∈ d.all
    · by_cases h0 : s.ZnDN = 0
      · simp [h0, diagonalOf]
      · rw [if_pos ⟨h0, rfl, h⟩, if_pos h]
        unfold diagonalOf
        congr 2
        ring
    · rw [if_neg (fun h' => h h'.2.2), if_neg h, zero_mul]
  · intro b _ hb
    rw [if_neg (fun h' => hb h'.2.1.symm), zero_mul]
  · intro h; exact absurd ha h

/-- `measure_singlet_fdm` computes the expectation value. -/
theorem measureFdm_eq (S : Symmetry) (tr : 𝕜) (st : FShell 𝕜 × Ops.Elements 𝕜) (hn : (st.1.diag.map Prod.fst).Nodup)
    (hst : ∀ p ∈ st.1.store, ∃ E, st.1.diag.lookup p.1 = some E ∧ p.2.kept ≤ E.nr)
    (hO : ScalarOn st.1.diag st.2) (r : Rho 𝕜) (hr : SavedFor S tr st.1.toShell r) :
    measureFdm S st.1.store r st.2 = some (expect S r (diagonalOf st.2)) := by
  unfold measureFdm expect
  rw [Symm.mapM_some _ _ (fun p : Label × Mat 𝕜 => ((mult S.fields p.1 : ℤ) : 𝕜) *
      ∑ a ∈ range p.2.c, ∑ b ∈ range p.2.c, p.2.e a b * diagonalOf st.2 p.1 b a)]
  · rfl
  · intro p hp
    obtain ⟨b, hb, h1, h2⟩ := hr.2.1 p hp
    obtain ⟨E, hE, hle⟩ := hst _ (Dm.mem_of_lookup _ _ _ hb)
    dsimp only at hE hle
    have hm := Dm.mem_of_lookup _ _ _ hE
    obtain ⟨M, hM⟩ := Option.isSome_iff_exists.1 (hO.all _ hm)
    dsimp only at hM
    obtain ⟨q, hq, e1, e2, e3⟩ := hO.sized _ (mem_of_lookup2 _ _ _ hM)
    have hq1 : q.1 = p.1 := (Prod.mk.inj e1).1.symm
    have hqE : q.2 = E := by
      have := lookup_of_mem _ hn q hq
      rw [hq1, hE] at this
      exact (Option.some.inj this).symm
    dsimp only at e2 e3
    rw [hqE] at e2 e3
    unfold measureBlock
    rw [hM, hb]
    simp only [Option.bind_eq_bind, Option.bind_some, Option.pure_def]
    rw [if_pos ⟨by omega, by omega, by omega, by omega⟩, h2]
    unfold traceContract diagonalOf
    rw [hM]
    rfl

/-- Scalar operators on all states at every step, carried from step to step. -/
theorem scalarHistory_on (B : Builtin) (hB : B ∈ builtins) (hne : B.symtype ≠ "SPSU2LR")
    (steps : List (FShell 𝕜 × Ops.Elements 𝕜)) (hH : History B.sym (steps.map fun s => s.1.toShell))
    (hl : ∀ s ∈ steps, LabelsPhysical B.sym s.1.toShell) (hS : ScalarHistory B steps) :
    ∀ s ∈ steps, ScalarOn s.1.diag s.2 := by
  induction steps with
  | nil => simp
  | cons cur steps ih =>
    cases steps with
    | nil => intro s hs; simp at hs; subst hs; exact hS
    | cons prev rest =>
      have ih' := ih hH.2.2 (fun s hs => hl s (List.mem_cons_of_mem _ hs)) hS.2
      intro s hs
      rcases List.mem_cons.1 hs with rfl | hs
      · exact (carriedScalar_spec B hB hne hH.1 (hl prev (by simp)) (hl s (by simp)) hH.2.1 (ih' prev (by simp)) hS.1).1
      · exact ih' s hs

theorem fdmSweep_expect (B : Builtin) (hB : B ∈ builtins) (hne : B.symtype ≠ "SPSU2LR") (T : ℝ) (last : Bool)
    (steps : List (FShell 𝕜 × Ops.Elements 𝕜)) (hH : FHistory B.sym T (steps.map Prod.fst))
    (hl : ∀ s ∈ steps, LabelsPhysical B.sym s.1.toShell) (hS : ScalarHistory B steps)
    (rho : Rho 𝕜) (hR : ∀ s ∈ steps.head?, Fits rho s.1.diag) (rs : List (Rho 𝕜))
    (hrs : fdmSweep B.sym T last (steps.map Prod.fst) rho = some rs) (k : ℕ) (r : Rho 𝕜) (hr : rs[k]? = some r)
    (cur : FShell 𝕜 × Ops.Elements 𝕜) (hc : steps.head? = some cur) :
    ∃ st tr, steps[k + 1]? = some st ∧ SavedFor B.sym tr st.1.toShell r ∧
      (∀ p ∈ st.1.store, ∃ E, st.1.diag.lookup p.1 = some E ∧ p.2.kept ≤ E.nr) ∧
      expect B.sym r (diagonalOf st.2) = expect B.sym rho (diagonalOf cur.2) +
        (((steps.take (k + 1)).drop (if last then 1 else 0)).map fun s => discardedPart B.sym T s.1 s.2).sum := by
  have hv := builtins_rowsValid B hB
  induction steps generalizing rho last rs k r cur with
  | nil => simp at hc
  | cons c steps ih =>
    simp only [List.head?_cons, Option.some.injEq] at hc
    subst hc
    cases steps with
    | nil => simp [fdmSweep] at hrs; subst hrs; simp at hr
    | cons prev rest =>
      have hon := scalarHistory_on B hB hne (c :: prev :: rest) (by
        have := hH.1; rwa [List.map_map] at this) hl hS
      obtain ⟨⟨hL, hs, hH'⟩, hT⟩ := hH
      have hRc := hR c (by simp)
      have hD : ∀ d, (if last then none else some (initRhoFDM T c.1)) = some d →
          Fits d c.1.diag ∧ ∀ p ∈ d, Diagonal p.2 := by
        intro d hd
        cases last with
        | true => simp at hd
        | false =>
          simp only [Bool.false_eq_true, if_false, Option.some.injEq] at hd
          subst hd
          exact ⟨fits_init T c.1 (hT c.1 (by simp)).1, diagonal_init T c.1⟩
      obtain ⟨r1, h1, h2⟩ := fdmStep_trace B.sym hv prev.1.toShell c.1.toShell hL rho hRc _ hD
      have hcar := (carriedScalar_spec B hB hne hL (hl prev (by simp)) (hl c (by simp)) hs (hon prev (by simp)) hS.1).2
      have hex := fdmStep_expect hv hL hRc _ hD _ _ hcar r1 h1
      have hfit : ∀ s ∈ (prev :: rest).head?, Fits r1 s.1.diag := by
        intro s hs'
        simp only [List.head?_cons, Option.mem_def, Option.some.injEq] at hs'
        subst hs'
        exact fits_of_saved hL.prevNodup h2 hs
      have hH2 : FHistory B.sym T ((prev :: rest).map Prod.fst) :=
        ⟨hH', fun s hs' => hT s (List.mem_cons_of_mem _ hs')⟩
      obtain ⟨rs', g1, _⟩ := fdmSweep_trace B.sym hv T false ((prev :: rest).map Prod.fst) hH2 r1 (by
        intro s hs'
        simp only [List.map_cons, List.head?_cons, Option.mem_def, Option.some.injEq] at hs'
        subst hs'
        exact hfit prev rfl)
      have hrs2 : rs = r1 :: rs' := by
        simp only [List.map_cons] at hrs g1
        simp only [fdmSweep, h1, Option.bind_eq_bind, Option.bind_some, Option.pure_def] at hrs
        rw [g1] at hrs
        exact (Option.some.inj hrs).symm
      subst hrs2
      have hdd : optExpect B.sym (if last then none else some (initRhoFDM T c.1)) (diagonalOf c.2)
          = if last then 0 else discardedPart B.sym T c.1 c.2 := by
        cases last with
        | true => rfl
        | false => exact expect_init B.sym T c.1 c.2
      rw [hdd] at hex
      cases k with
      | zero =>
        simp only [List.getElem?_cons_zero, Option.some.injEq] at hr
        subst hr
        refine ⟨prev, _, rfl, h2, hs, ?_⟩
        rw [hex]
        cases last <;> simp
      | succ k =>
        simp only [List.getElem?_cons_succ] at hr
        obtain ⟨st, tr, k1, k2, k3, k4⟩ := ih false hH2 (fun s hs' => hl s (List.mem_cons_of_mem _ hs')) hS.2 r1 hfit rs' g1 k r hr prev rfl
        refine ⟨st, tr, by simpa using k1, k2, k3, ?_⟩
        rw [k4, hex]
        cases last with
        | true => simp
        | false => simp [add_assoc]

/-- **C77.** Every built-in symmetry except `SPSU2LR`, every run and every scalar operator: when
the expectation value of the operator is measured with the full density matrix at some step, the
measurement succeeds, and its result is the sum, over the discarded states of all later
steps, of weight times diagonal matrix element.  (`steps` starts with the last step, all states of
which count as discarded.  The result belongs to entry `k + 1` of the list, and the sum ranges over
the entries `0, …, k`.) -/
theorem fdm_expectation (B : Builtin) (hB : B ∈ builtins) (hne : B.symtype ≠ "SPSU2LR") (T : ℝ)
    (steps : List (FShell 𝕜 × Ops.Elements 𝕜)) (hH : FHistory B.sym T (steps.map Prod.fst))
    (hl : ∀ s ∈ steps, LabelsPhysical B.sym s.1.toShell) (hS : ScalarHistory B steps) :
    ∃ rs, fdmAll B.sym T (steps.map Prod.fst) = some rs ∧ rs.length = steps.length - 1 ∧
      ∀ k r, rs[k]? = some r → ∃ st, steps[k + 1]? = some st ∧
        measureFdm B.sym st.1.store r st.2 = some ((steps.take (k + 1)).map fun s => discardedPart B.sym T s.1 s.2).sum := by
  have hv := builtins_rowsValid B hB
  obtain ⟨rs, h1, h2, _⟩ := fdm_trace B.sym hv T _ hH
  refine ⟨rs, h1, by simpa using h2, fun k r hr => ?_⟩
  cases steps with
  | nil => simp [fdmAll] at h1; subst h1; simp at hr
  | cons cur rest =>
    have hfit : ∀ s ∈ (cur :: rest).head?, Fits (initRhoFDM T cur.1) s.1.diag := by
      intro s hs
      simp only [List.head?_cons, Option.mem_def, Option.some.injEq] at hs
      subst hs
      exact fits_init T cur.1 (hH.2 cur.1 (by simp)).1
    obtain ⟨st, tr, k1, k2, k3, k4⟩ := fdmSweep_expect B hB hne T true (cur :: rest) hH hl hS (initRhoFDM T cur.1) hfit rs h1 k r hr cur rfl
    have hm := List.mem_of_getElem? k1
    have hon := scalarHistory_on B hB hne _ (by have := hH.1; rwa [List.map_map] at this) hl hS st hm
    refine ⟨st, k1, ?_⟩
    rw [measureFdm_eq B.sym tr st (hl st hm).1 k3 hon r k2, k4, expect_init]
    simp

/-- **C77 (choice of the step).** As long as no states are discarded in between, it does not
matter at which step the expectation value is measured: two measurements at the entries `k + 1`
and `k' + 1`, `k ≤ k'`, agree when the entries `k + 1, …, k'` have no discarded states. -/
theorem fdm_expectation_step (B : Builtin) (hB : B ∈ builtins) (hne : B.symtype ≠ "SPSU2LR") (T : ℝ)
    (steps : List (FShell 𝕜 × Ops.Elements 𝕜)) (hH : FHistory B.sym T (steps.map Prod.fst))
    (hl : ∀ s ∈ steps, LabelsPhysical B.sym s.1.toShell) (hS : ScalarHistory B steps)
    (rs : List (Rho 𝕜)) (hrs : fdmAll B.sym T (steps.map Prod.fst) = some rs) (k d : ℕ) (r r' : Rho 𝕜)
    (hr : rs[k]? = some r) (hr' : rs[k + d]? = some r')
    (hkeep : ∀ j, k < j → j ≤ k + d → ∀ s, steps[j]? = some s → ∀ x ∈ s.1.thermo, x.all = []) :
    ∃ st st' v, steps[k + 1]? = some st ∧ steps[k + d + 1]? = some st' ∧
      measureFdm B.sym st.1.store r st.2 = some v ∧ measureFdm B.sym st'.1.store r' st'.2 = some v := by
  obtain ⟨rs', h1, _, h3⟩ := fdm_expectation B hB hne T steps hH hl hS
  rw [hrs] at h1
  cases h1
  obtain ⟨st, a1, a2⟩ := h3 k r hr
  obtain ⟨st', b1, b2⟩ := h3 (k + d) r' hr'
  refine ⟨st, st', _, a1, b1, a2, ?_⟩
  rw [b2, show k + d + 1 = (k + 1) + d by omega, List.take_add, List.map_append, List.sum_append]
  congr 1
  conv_rhs => rw [← add_zero (List.sum _)]
  congr 1
  apply List.sum_eq_zero
  intro x hx
  obtain ⟨s, hs, rfl⟩ := List.mem_map.1 hx
  obtain ⟨i, hi⟩ := List.mem_iff_getElem?.1 hs
  rw [List.getElem?_take] at hi
  by_cases hid : i < d
  · rw [if_pos hid, List.getElem?_drop] at hi
    have := hkeep (k + 1 + i) (by omega) (by omega) s hi
    unfold discardedPart
    apply List.sum_eq_zero
    intro y hy
    obtain ⟨x, hx, rfl⟩ := List.mem_map.1 hy
    rw [this x hx]
    rfl
  · rw [if_neg hid] at hi; cases hi

end Verif.Sumrule
