import Verif.Sumrule.FdmSum
/-!
# The total weight of the lesser spectral function
-/

namespace Verif.Sumrule
open Verif.Invar Verif.Symm Verif.Mat Verif.Dm Verif.Spectral Finset

/-- The two expressions for the weight of a discarded state. -/
theorem weight_eq {S : Symmetry} {T : ℝ} {st : SpecStep} (h : WeightsOK S T st) {d : Thermo.Sub} (hd : d ∈ st.shell.thermo)
    {i : ℕ} (hi : i ∈ d.all) :
    st.wnf * Real.exp (-(d.vals.absG i) / T) = Real.exp (-(d.vals.absZero i) / T) * st.shell.wn / st.shell.ZnDN ∧
      st.shell.ZnDN ≠ 0 := by
  obtain ⟨gs, t, hc⟩ := h.refs
  have hz : st.shell.ZnDN ≠ 0 := by
    intro h0
    rw [h.ZnDN] at h0
    have hnn : ∀ s ∈ st.shell.thermo, 0 ≤ (s.all.map fun i => (multN S s.label : ℝ) * Real.exp (-(s.vals.absZero i) / T)).sum :=
      fun s _ => Thermo.Spec.sum_map_nonneg _ _ fun i _ => mul_nonneg (by positivity) (Real.exp_pos _).le
    have h1 : (d.all.map fun i => (multN S d.label : ℝ) * Real.exp (-(d.vals.absZero i) / T)).sum ≤ 0 := by
      rw [← h0]
      exact List.single_le_sum (by
        intro z hz
        obtain ⟨s', hs', rfl⟩ := List.mem_map.1 hz
        exact hnn s' hs') _ (List.mem_map.2 ⟨d, hd, rfl⟩)
    have h2 : (multN S d.label : ℝ) * Real.exp (-(d.vals.absZero i) / T) ≤ 0 := by
      refine le_trans ?_ h1
      exact List.single_le_sum (by
        intro z hz
        obtain ⟨j, hj, rfl⟩ := List.mem_map.1 hz
        exact mul_nonneg (by positivity) (Real.exp_pos _).le) _ (List.mem_map.2 ⟨i, hi, rfl⟩)
    have h3 : (0 : ℝ) < multN S d.label := by
      have := h.mult d hd
      exact_mod_cast (by unfold multN; omega : 0 < multN S d.label)
    have := mul_pos h3 (Real.exp_pos (-(d.vals.absZero i) / T))
    linarith
  refine ⟨?_, hz⟩
  have key : ∀ s ∈ st.shell.thermo, ∀ i, Real.exp (-(s.vals.absG i) / T) = Real.exp ((gs - t) / T) * Real.exp (-(s.vals.absZero i) / T) := by
    intro s hs i
    rw [← Real.exp_add]
    congr 1
    simp only [Thermo.Values.absG, Thermo.Values.absT, (hc s hs).1, (hc s hs).2]
    ring
  have hw : st.shell.wn = st.wnf * (Real.exp ((gs - t) / T) * st.shell.ZnDN) := by
    rw [h.wn, h.ZnDN]
    congr 1
    rw [← Thermo.shellSum_smul]
    apply Thermo.shellSum_congr
    intro s hs i
    exact key s hs i
  rw [key d hd, hw]
  field_simp

/-- An expectation value as a sum over the stored spectrum. -/
theorem expect_thermo (S : Symmetry) (P : Scalar ℂ) (size : Thermo.Sub → ℕ) : ∀ (sh : Thermo.Shell) (ρ : Rho ℂ),
    ρ.map Prod.fst = sh.map Thermo.Sub.label → (sh.map Thermo.Sub.label).Nodup →
    (∀ d ∈ sh, ∀ M, ρ.lookup d.label = some M → M.c = size d) →
    expect S ρ P = (sh.map fun d => ((mult S.fields d.label : ℤ) : ℂ) * ∑ k ∈ range (size d), ∑ l ∈ range (size d),
      ((ρ.lookup d.label).getD Mat.empty).e k l * P d.label l k).sum
  | [], [], _, _, _ => rfl
  | [], _ :: _, h, _, _ => by simp at h
  | _ :: _, [], h, _, _ => by simp at h
  | d :: sh, p :: ρ, h, hn, hs => by
    simp only [List.map_cons, List.cons.injEq] at h
    simp only [List.map_cons, List.nodup_cons] at hn
    obtain ⟨a, M⟩ := p
    obtain ⟨h1, h2⟩ := h
    dsimp only at h1
    subst h1
    have hne : ∀ d' ∈ sh, ((d.label, M) :: ρ).lookup d'.label = ρ.lookup d'.label := by
      intro d' hd'
      have : (d'.label == d.label) = false := by
        simp only [beq_eq_false_iff_ne, ne_eq]
        intro h
        exact hn.1 (by rw [← h]; exact List.mem_map_of_mem hd')
      simp [List.lookup, this]
    have ih := expect_thermo S P size sh ρ h2 hn.2 (fun d' hd' N hN => hs d' (List.mem_cons_of_mem _ hd') N (by
      rw [hne d' hd']; exact hN))
    unfold expect at ih ⊢
    simp only [List.map_cons, List.sum_cons]
    rw [ih]
    have h0 : ((d.label, M) :: ρ).lookup d.label = some M := by simp [List.lookup]
    have hM := hs d (by simp) M h0
    rw [h0, hM]
    congr 1
    congr 1
    apply List.map_congr_left
    intro d' hd'
    rw [hne d' hd']

/-- The complete density matrix of a step in two parts. -/
theorem full_split {S : Symmetry} {T : ℝ} {last : Bool} {st : SpecStep} (h : StepOK last st) (hw : WeightsOK S T st) (ρ : Rho ℂ) (P : Scalar ℂ) :
    fullExpect S T st ρ P = keptExpect S st ρ P + expect S (initRhoFDM T st.shell) P := by
  classical
  unfold fullExpect keptExpect
  have hI : expect S (initRhoFDM T st.shell) P = (st.shell.thermo.map fun d => ((mult S.fields d.label : ℤ) : ℂ) *
      ∑ k ∈ range d.dim, if d.min ≤ k then ((st.wnf * Real.exp (-(d.vals.absG k) / T) : ℝ) : ℂ) * P d.label k k else 0).sum := by
    unfold expect initRhoFDM
    rw [List.map_map]
    congr 1
    apply List.map_congr_left
    intro d hd
    simp only [Function.comp_def]
    congr 1
    refine sum_congr rfl fun a ha => ?_
    have ha' := mem_range.1 ha
    rw [sum_eq_single a]
    · have hmem : a ∈ d.all ↔ d.min ≤ a := by
        unfold Thermo.Sub.all
        rw [List.mem_range'_1]
        change a < d.max at ha'
        omega
      by_cases hall : a ∈ d.all
      · obtain ⟨hx, hz⟩ := weight_eq hw hd hall
        rw [if_pos ⟨hz, rfl, hall⟩, if_pos (hmem.1 hall), hx]
        rfl
      · rw [if_neg (fun h' => hall h'.2.2), if_neg (fun h' => hall (hmem.2 h')), zero_mul]
    · intro b _ hb
      rw [if_neg (fun h' => hb h'.2.1.symm), zero_mul]
    · intro h'; exact absurd ha h'
  rw [hI, ← List.sum_map_add]
  congr 1
  apply List.map_congr_left
  intro d hd
  rw [← mul_add]
  congr 1
  have hle : d.min ≤ d.dim := by
    have := h.le d hd
    unfold Thermo.Sub.min
    split <;> omega
  have row : ∀ k ∈ range d.dim, ∑ l ∈ range d.dim, fullRho (eigD d) ((ρ.lookup d.label).getD Mat.empty) st.wnf T k l * P d.label l k =
      (if k < d.min then ∑ l ∈ range d.min, ((ρ.lookup d.label).getD Mat.empty).e k l * P d.label l k else 0) +
      (if d.min ≤ k then ((st.wnf * Real.exp (-(d.vals.absG k) / T) : ℝ) : ℂ) * P d.label k k else 0) := by
    intro k hk
    by_cases hkm : k < d.min
    · rw [if_pos hkm, if_neg (by omega), add_zero]
      exact sum_fullRho_K' (eigD d) _ _ _ _ k hkm hle
    · rw [if_neg hkm, if_pos (by omega), zero_add]
      refine (sum_fullRho_D' (eigD d) _ _ _ _ k (not_lt.1 hkm) (mem_range.1 hk)).trans ?_
      unfold boltz
      push_cast
      rfl
  rw [sum_congr rfl row, sum_add_distrib]
  congr 1
  rw [← sum_filter]
  refine sum_congr ?_ fun _ _ => rfl
  ext k
  simp only [mem_filter, mem_range]
  omega

/-- In the reduced density matrices `P` is the product of the operators restricted to the kept states; in
the next step it is the product on all states. -/
def ProductsCarried (S : Symmetry) : List SpecStep → Prop
  | cur :: prev :: rest => Carried S cur.shell.diag (Coef.prodEntry (keptSizes prev.shell.store) prev.B prev.A)
      (Coef.prodEntry (Coef.stateCounts cur.shell.diag) cur.B cur.A) ∧ ProductsCarried S (prev :: rest)
  | _ => True

theorem labels_eq {last : Bool} {st : SpecStep} (h : StepOK last st) :
    st.shell.store.map Prod.fst = st.shell.thermo.map Thermo.Sub.label := by
  have := congrArg (List.map Prod.fst) h.kept
  simp only [keptSizes, List.map_map] at this
  exact this.symm

theorem kept_of_saved {S : Symmetry} {tr : ℂ} {st : SpecStep} (h : StepOK false st) {r : Rho ℂ} (hr : SavedFor S tr st.shell.toShell r) :
    RhoOK false st r ∧ ∀ P, keptExpect S st r P = expect S r P := by
  have hn : (st.shell.store.map Prod.fst).Nodup := by rw [labels_eq h]; exact h.nodup
  have hsz : ∀ d ∈ st.shell.thermo, ∀ M, r.lookup d.label = some M → M.r = d.kept ∧ M.c = d.kept := by
    intro d hd M hM
    obtain ⟨b, hb, h1, h2⟩ := hr.2.1 _ (Dm.mem_of_lookup _ _ _ hM)
    have hm : (d.label, d.kept) ∈ keptSizes st.shell.store := by
      rw [← h.kept]; exact List.mem_map_of_mem (f := fun d : Thermo.Sub => (d.label, d.kept)) hd
    obtain ⟨p, hp, hpe⟩ := List.mem_map.1 hm
    obtain ⟨g1, g2⟩ := Prod.mk.inj hpe
    dsimp only at hb h1 h2
    have := lookup_of_mem _ hn p hp
    rw [g1] at this
    rw [this] at hb
    cases hb
    omega
  constructor
  · intro d hd
    cases hM : r.lookup d.label with
    | none =>
      exfalso
      rw [List.lookup_eq_none_iff] at hM
      have : d.label ∈ r.map Prod.fst := by
        rw [hr.1, labels_eq h]; exact List.mem_map_of_mem hd
      obtain ⟨p, hp, e⟩ := List.mem_map.1 this
      have := hM p hp
      simp [e] at this
    | some M => exact ⟨M, rfl, fun _ => hsz d hd M hM⟩
  · intro P
    rw [expect_thermo S P Thermo.Sub.kept st.shell.thermo r (by rw [hr.1, labels_eq h]) h.nodup (fun d hd M hM => (hsz d hd M hM).2)]
    unfold keptExpect
    congr 1
    apply List.map_congr_left
    intro d hd
    have : d.min = d.kept := by unfold Thermo.Sub.min; rw [h.flag d hd]; rfl
    rw [this]

theorem rhoOK_init (T : ℝ) (st : SpecStep) (hn : (st.shell.thermo.map Thermo.Sub.label).Nodup) : RhoOK true st (initRhoFDM T st.shell) := by
  intro d hd
  have hn' : ((initRhoFDM T st.shell).map Prod.fst).Nodup := by
    have : (initRhoFDM T st.shell).map Prod.fst = st.shell.thermo.map Thermo.Sub.label := by
      simp [initRhoFDM, Function.comp_def]
    rw [this]; exact hn
  refine ⟨_, lookup_of_mem _ hn' _ (List.mem_map.2 ⟨d, hd, rfl⟩), fun h => by cases h⟩

/-- The steps of a run: only the first of the list is the last step of the run. -/
def StepsOK (last : Bool) : List SpecStep → Prop
  | st :: rest => StepOK last st ∧ StepsOK false rest
  | [] => True

theorem sweep_ls (S : Symmetry) (hv : RowsValid S) (a : SpecArgs) (c : ℂ) (last : Bool) (cur : SpecStep) (rest : List SpecStep)
    (hH : FHistory S a.T ((cur :: rest).map SpecStep.shell)) (hS : StepsOK last (cur :: rest))
    (hw : ∀ st ∈ cur :: rest, WeightsOK S a.T st) (hP : ProductsCarried S (cur :: rest))
    (hcf : ∀ st ∈ cur :: rest, ∀ e ∈ st.A, a.cf e.1.1 e.1.2 = true)
    (hff : ∀ st ∈ cur :: rest, ∀ e ∈ st.A, a.ff e.1.2 e.1.1 = c * ((mult S.fields e.1.1 : ℤ) : ℂ))
    (rho : Rho ℂ) (hf : Fits rho cur.shell.diag) (hr : RhoOK last cur rho) (hlast : last = true → rho = initRhoFDM a.T cur.shell)
    (hk : last = false → ∀ P, keptExpect S cur rho P = expect S rho P)
    (rs : List (Rho ℂ)) (hrs : fdmSweep S a.T last ((cur :: rest).map SpecStep.shell) rho = some rs) :
    ∃ pks, specRun a true (cur :: rest) (rho :: rs) = some pks ∧
      (pks.map fun l => (l.map Prod.snd).sum).sum = -((gfSign a.gt : ℤ) : ℂ) * c *
        (fullExpect S a.T (rest.getLastD cur) (rs.getLastD rho)
            (Coef.prodEntry (Coef.stateCounts (rest.getLastD cur).shell.diag) (rest.getLastD cur).B (rest.getLastD cur).A) -
         (if last then 0 else expect S rho (Coef.prodEntry (keptSizes cur.shell.store) cur.B cur.A))) := by
  induction rest generalizing cur last rho rs with
  | nil =>
    simp only [List.map_cons, List.map_nil, fdmSweep, Option.some.injEq] at hrs
    subst hrs
    obtain ⟨l, h1, h2⟩ := step_ls S a c hS.1 hr (hcf cur (by simp)) (hff cur (by simp))
    refine ⟨[l], by simp [specRun, h1], ?_⟩
    simp only [List.map_cons, List.map_nil, List.sum_cons, List.sum_nil, add_zero, List.getLastD_nil]
    rw [h2]
    cases last with
    | true => rfl
    | false => simp only [Bool.false_eq_true, if_false]; rw [hk rfl]
  | cons prev rest ih =>
    obtain ⟨⟨hL, hs, hH'⟩, hT⟩ := hH
    obtain ⟨l, h1, h2⟩ := step_ls S a c hS.1 hr (hcf cur (by simp)) (hff cur (by simp))
    have hD : ∀ d, (if last then none else some (initRhoFDM a.T cur.shell)) = some d →
        Fits d cur.shell.diag ∧ ∀ p ∈ d, Diagonal p.2 := by
      intro d hd
      cases last with
      | true => simp at hd
      | false =>
        simp only [Bool.false_eq_true, if_false, Option.some.injEq] at hd
        subst hd
        exact ⟨fits_init a.T cur.shell (hT cur.shell (by simp)).1, diagonal_init a.T cur.shell⟩
    obtain ⟨r1, g1, g2⟩ := fdmStep_trace S hv prev.shell.toShell cur.shell.toShell hL rho hf _ hD
    have hex := fdmStep_expect hv hL hf _ hD _ _ hP.1 r1 g1
    have hfit : Fits r1 prev.shell.diag := fits_of_saved hL.prevNodup g2 hs
    have hH2 : FHistory S a.T ((prev :: rest).map SpecStep.shell) :=
      ⟨hH', fun s hs' => hT s (List.mem_cons_of_mem _ hs')⟩
    obtain ⟨rs', k1, _⟩ := fdmSweep_trace S hv a.T false ((prev :: rest).map SpecStep.shell) hH2 r1 (by
      intro s hs'
      simp only [List.map_cons, List.head?_cons, Option.mem_def, Option.some.injEq] at hs'
      subst hs'
      exact hfit)
    have hrs2 : rs = r1 :: rs' := by
      simp only [List.map_cons] at hrs k1
      simp only [fdmSweep, g1, Option.bind_eq_bind, Option.bind_some, Option.pure_def] at hrs
      rw [k1] at hrs
      exact (Option.some.inj hrs).symm
    subst hrs2
    obtain ⟨q1, q2⟩ := kept_of_saved hS.2.1 g2
    obtain ⟨pks, m1, m2⟩ := ih false prev hH2 hS.2 (fun st hst => hw st (List.mem_cons_of_mem _ hst)) hP.2
      (fun st hst => hcf st (List.mem_cons_of_mem _ hst)) (fun st hst => hff st (List.mem_cons_of_mem _ hst))
      r1 hfit q1 (by simp) (fun _ => q2) rs' k1
    refine ⟨l :: pks, ?_, ?_⟩
    · unfold specRun at m1 ⊢
      rw [List.zip_cons_cons, List.mapM_cons, h1, m1]
      rfl
    · rw [List.map_cons, List.sum_cons, h2, m2]
      have hfull : fullExpect S a.T cur rho (Coef.prodEntry (Coef.stateCounts cur.shell.diag) cur.B cur.A) =
          expect S r1 (Coef.prodEntry (keptSizes prev.shell.store) prev.B prev.A) := by
        rw [hex, full_split hS.1 (hw cur (by simp))]
        cases last with
        | true =>
          have : keptExpect S cur rho (Coef.prodEntry (Coef.stateCounts cur.shell.diag) cur.B cur.A) = 0 := by
            unfold keptExpect
            apply List.sum_eq_zero
            intro x hx
            obtain ⟨d, hd, rfl⟩ := List.mem_map.1 hx
            have : d.min = 0 := by unfold Thermo.Sub.min; rw [hS.1.flag d hd]; rfl
            rw [this]; simp
          rw [this, hlast rfl]
          simp [optExpect]
        | false =>
          rw [hk rfl]
          rfl
      rw [hfull]
      have e1 : (prev :: rest).getLastD cur = rest.getLastD prev := by
        cases rest <;> simp [List.getLastD]
      have e2 : (r1 :: rs').getLastD rho = rs'.getLastD r1 := by
        cases rs' <;> simp [List.getLastD]
      rw [e1, e2]
      cases last with
      | true => simp only [if_true, Bool.false_eq_true, if_false]; ring
      | false =>
        simp only [Bool.false_eq_true, if_false]
        rw [hk rfl]
        ring

end Verif.Sumrule
