import Verif.Sumrule.Carry
/-!
# C78: the sum rule of the full-density-matrix spectral functions
-/

namespace Verif.Sumrule
open Verif.Invar Verif.Symm Verif.Mat Verif.Dm Verif.Spectral Verif.Oper Finset

theorem operators_all (T : OpTable) (hT : T ∈ opTables) (hW : T.Works) (hu : T.id ∉ Coef.unevaluated) (steps : List SpecStep)
    (hH : History T.builtin.sym (steps.map fun s => s.shell.toShell)) (hO : OperatorHistory T steps) :
    ProductsCarried T.builtin.sym steps ∧ ∀ st ∈ steps, OperatorAll T st.shell.diag st.A ∧ OperatorAll T st.shell.diag st.B ∧
      (st.shell.diag.map Prod.fst).Nodup ∧ ∀ p ∈ st.shell.diag, 0 < p.2.nr := by
  induction steps with
  | nil => exact ⟨trivial, by simp⟩
  | cons cur steps ih =>
    cases steps with
    | nil =>
      refine ⟨trivial, fun st hst => ?_⟩
      simp only [List.mem_singleton] at hst
      subst hst
      exact hO
    | cons prev rest =>
      obtain ⟨ih1, ih2⟩ := ih hH.2.2 hO.2
      obtain ⟨sub, hk, hreg, cA, cB⟩ := hO.1
      obtain ⟨a1, a2, a3, a4⟩ := ih2 prev (by simp)
      obtain ⟨b1, b2, b3, b4⟩ := step_carried hT hW hu hH.1 hk hreg a4 a3 a1 a2 cA cB
      refine ⟨⟨b4, ih1⟩, fun st hst => ?_⟩
      rcases List.mem_cons.1 hst with rfl | hst
      · exact ⟨b1, b2, hH.1.curNodup, b3⟩
      · exact ih2 st hst

theorem stepOK_of (T : OpTable) {last : Bool} {st : SpecStep} (h : SpectrumOK last st.shell) (hA : OperatorAll T st.shell.diag st.A)
    (hB : OperatorAll T st.shell.diag st.B) (hn : (st.shell.diag.map Prod.fst).Nodup) : StepOK last st := by
  have hlab : st.shell.thermo.map Thermo.Sub.label = st.shell.diag.map Prod.fst := by
    have := congrArg (List.map Prod.fst) h.states
    simp only [Coef.stateCounts, List.map_map] at this
    exact this
  refine ⟨h.states, h.kept, h.le, h.flag, by rw [hlab]; exact hn, hA.keys, fun e he => ?_, hB.on.fits⟩
  obtain ⟨l1, l2⟩ := hA.labels e he
  obtain ⟨f1, f2⟩ := hA.on.fits e he
  exact ⟨by rw [hlab]; exact l1, by rw [hlab]; exact l2, f1, f2⟩

theorem stepsOK_of (T : OpTable) (last : Bool) (steps : List SpecStep) (h : SpectraOK last steps)
    (hO : ∀ st ∈ steps, OperatorAll T st.shell.diag st.A ∧ OperatorAll T st.shell.diag st.B ∧
      (st.shell.diag.map Prod.fst).Nodup ∧ ∀ p ∈ st.shell.diag, 0 < p.2.nr) : StepsOK last steps := by
  induction steps generalizing last with
  | nil => trivial
  | cons st rest ih =>
    obtain ⟨a1, a2, a3, _⟩ := hO st (by simp)
    exact ⟨stepOK_of T h.1 a1 a2 a3, ih false h.2 fun s hs => hO s (List.mem_cons_of_mem _ hs)⟩

/-- **C78.** The lesser spectral function of two operators `A`, `B` of any kind that is carried
correctly (C75, C76), computed from the full density matrix: the run succeeds, and the
total weight, over all steps, of the delta peaks is `∓ c ⟨B A†⟩`, the expectation value in the complete
density matrix of the first step; so it does not depend on how many states are
kept at the later ones.  `c`: the factor of a block is `c` times the multiplicity of the bra.  `steps` starts
with the last step; `first` is the first one. -/
theorem fdm_sum_rule_ls_partial (T : OpTable) (hT : T ∈ opTables) (hW : T.Works) (hu : T.id ∉ Coef.unevaluated)
    (a : SpecArgs) (c : ℂ) (cur : SpecStep) (rest : List SpecStep)
    (hH : FHistory T.builtin.sym a.T ((cur :: rest).map SpecStep.shell)) (hS : SpectraOK true (cur :: rest))
    (hw : ∀ st ∈ cur :: rest, WeightsOK T.builtin.sym a.T st) (hO : OperatorHistory T (cur :: rest))
    (hcf : ∀ st ∈ cur :: rest, ∀ e ∈ st.A, a.cf e.1.1 e.1.2 = true)
    (hff : ∀ st ∈ cur :: rest, ∀ e ∈ st.A, a.ff e.1.2 e.1.1 = c * ((mult T.builtin.sym.fields e.1.1 : ℤ) : ℂ)) :
    ∃ rs pks, fdmAll T.builtin.sym a.T ((cur :: rest).map SpecStep.shell) = some rs ∧
      specRun a true (cur :: rest) (initRhoFDM a.T cur.shell :: rs) = some pks ∧
      let first := rest.getLastD cur
      (pks.map fun l => (l.map Prod.snd).sum).sum = -((gfSign a.gt : ℤ) : ℂ) * c *
        fullExpect T.builtin.sym a.T first (rs.getLastD (initRhoFDM a.T cur.shell))
          (Coef.prodEntry (Coef.stateCounts first.shell.diag) first.B first.A) := by
  have hv := builtins_rowsValid _ (table_builtin hT)
  obtain ⟨rs, h1, _, _⟩ := fdm_trace T.builtin.sym hv a.T _ hH
  obtain ⟨o1, o2⟩ := operators_all T hT hW hu (cur :: rest) (by
    have := hH.1; rwa [List.map_map] at this) hO
  have hst := stepsOK_of T true (cur :: rest) hS o2
  obtain ⟨pks, p1, p2⟩ := sweep_ls T.builtin.sym hv a c true cur rest hH hst hw o1 hcf hff
    (initRhoFDM a.T cur.shell) (fits_init a.T cur.shell (hH.2 cur.shell (by simp)).1)
    (rhoOK_init a.T cur hst.1.nodup) (fun _ => rfl) (fun h => by cases h) rs h1
  refine ⟨rs, pks, h1, p1, ?_⟩
  dsimp only
  rw [p2]
  simp

/-- **C78 (what the program reports).** When the first step keeps all its states, the weight
collected in the bins of the lesser spectral function, after the peaks of all steps have
been added, is `∓ c` times the value `measure_singlet_fdm` reports at the first step for the scalar operator
`B A†`. -/
theorem fdm_sum_rule_measured_partial (T : OpTable) (hT : T ∈ opTables) (hW : T.Works) (hu : T.id ∉ Coef.unevaluated)
    (a : SpecArgs) (c : ℂ) (cur : SpecStep) (rest : List SpecStep) (hne : rest ≠ [])
    (hH : FHistory T.builtin.sym a.T ((cur :: rest).map SpecStep.shell)) (hS : SpectraOK true (cur :: rest))
    (hw : ∀ st ∈ cur :: rest, WeightsOK T.builtin.sym a.T st) (hO : OperatorHistory T (cur :: rest))
    (hcf : ∀ st ∈ cur :: rest, ∀ e ∈ st.A, a.cf e.1.1 e.1.2 = true)
    (hff : ∀ st ∈ cur :: rest, ∀ e ∈ st.A, a.ff e.1.2 e.1.1 = c * ((mult T.builtin.sym.fields e.1.1 : ℤ) : ℂ))
    (hall : ∀ d ∈ (rest.getLastD cur).shell.thermo, d.kept = d.dim)
    (O : Ops.Elements ℂ) (hOn : ScalarOn (rest.getLastD cur).shell.diag O)
    (hprod : Coef.IsProduct (Coef.stateCounts (rest.getLastD cur).shell.diag) (rest.getLastD cur).B (rest.getLastD cur).A O)
    (g : Grid) (hg : GoodGrid g) (hacc : g.accumulation ≤ 0) (hd : g.discardImmediately ≤ 0) :
    ∃ rs r pks v G, fdmAll T.builtin.sym a.T ((cur :: rest).map SpecStep.shell) = some rs ∧ rs.getLast? = some r ∧
      specRun a true (cur :: rest) (initRhoFDM a.T cur.shell :: rs) = some pks ∧
      pks.reverse.foldlM (fun c s => stepOne g c s) (Chain.new g) = some G ∧
      measureFdm T.builtin.sym (rest.getLastD cur).shell.store r O = some v ∧
      G.total = -((gfSign a.gt : ℤ) : ℂ) * c * v := by
  have hv := builtins_rowsValid _ (table_builtin hT)
  obtain ⟨rs, pks, h1, h2, h3⟩ := fdm_sum_rule_ls_partial T hT hW hu a c cur rest hH hS hw hO hcf hff
  obtain ⟨rs', g1, g2, g3⟩ := fdm_trace T.builtin.sym hv a.T _ hH
  rw [h1] at g1
  cases g1
  obtain ⟨_, o2⟩ := operators_all T hT hW hu (cur :: rest) (by
    have := hH.1; rwa [List.map_map] at this) hO
  have hst := stepsOK_of T true (cur :: rest) hS o2
  have hlen : rs.length = rest.length := by simpa using g2
  have hpos : 0 < rest.length := List.length_pos_iff.2 hne
  have hlast : (cur :: rest)[rest.length]? = some (rest.getLastD cur) := by
    rw [List.getLastD_eq_getLast?, List.getLast?_eq_getElem?]
    obtain ⟨n, hn⟩ : ∃ n, rest.length = n + 1 := ⟨rest.length - 1, by omega⟩
    rw [hn, List.getElem?_cons_succ, Nat.add_sub_cancel]
    cases h : rest[n]? with
    | none => rw [List.getElem?_eq_none_iff] at h; omega
    | some x => rfl
  obtain ⟨r, hr⟩ : ∃ r, rs.getLast? = some r := by
    cases h : rs.getLast? with
    | none => rw [List.getLast?_eq_none_iff] at h; rw [h] at hlen; simp at hlen; omega
    | some r => exact ⟨r, rfl⟩
  have hri : rs[rest.length - 1]? = some r := by rw [List.getLast?_eq_getElem?, hlen] at hr; exact hr
  obtain ⟨s, k1, k2⟩ := g3 _ r hri
  have hs : s = (rest.getLastD cur).shell := by
    rw [List.getElem?_map, show rest.length - 1 + 1 = rest.length by omega, hlast] at k1
    exact (Option.some.inj k1).symm
  subst hs
  set first := rest.getLastD cur with hfirst
  have hmem : first ∈ cur :: rest := List.mem_of_getElem? hlast
  have hok : StepOK false first := by
    have aux : ∀ (l : List SpecStep), StepsOK false l → ∀ st ∈ l, StepOK false st := by
      intro l
      induction l with
      | nil => simp
      | cons x l ih =>
        intro h st hst
        rcases List.mem_cons.1 hst with rfl | hst
        · exact h.1
        · exact ih h.2 st hst
    refine aux rest hst.2 first ?_
    have : rest[rest.length - 1]? = some first := by
      obtain ⟨n, hn⟩ : ∃ n, rest.length = n + 1 := ⟨rest.length - 1, by omega⟩
      rw [hn, List.getElem?_cons_succ] at hlast
      rw [hn]; exact hlast
    exact List.mem_of_getElem? this
  obtain ⟨q1, q2⟩ := kept_of_saved hok k2
  obtain ⟨_, _, hnd, _⟩ := o2 first hmem
  have hstore : ∀ p ∈ first.shell.store, ∃ E, first.shell.diag.lookup p.1 = some E ∧ p.2.kept ≤ E.nr := by
    intro p hp
    have hm : (p.1, p.2.kept) ∈ keptSizes first.shell.store := List.mem_map.2 ⟨p, hp, rfl⟩
    rw [← hok.kept] at hm
    obtain ⟨d, hd, e⟩ := List.mem_map.1 hm
    obtain ⟨e1, e2⟩ := Prod.mk.inj e
    have hm2 : (d.label, d.dim) ∈ Coef.stateCounts first.shell.diag := by
      rw [← hok.states]; exact List.mem_map_of_mem (f := fun d : Thermo.Sub => (d.label, d.dim)) hd
    obtain ⟨q, hq, f⟩ := List.mem_map.1 hm2
    obtain ⟨f1, f2⟩ := Prod.mk.inj f
    refine ⟨q.2, ?_, ?_⟩
    · have := lookup_of_mem _ hnd q hq
      rw [f1, e1] at this
      exact this
    · have := hok.le d hd
      omega
  have hmeas := measureFdm_eq T.builtin.sym _ (first.shell, O) hnd hstore hOn r k2
  obtain ⟨G, hG1, hG2⟩ := stepOne_total g hg hacc hd pks.reverse
  refine ⟨rs, r, pks, _, G, h1, hr, h2, hG1, hmeas, ?_⟩
  rw [hG2, List.map_reverse, List.sum_reverse, h3]
  congr 1
  have hrl : rs.getLastD (initRhoFDM a.T cur.shell) = r := by
    rw [List.getLastD_eq_getLast?, hr]; rfl
  rw [hrl, full_split hok (hw first hmem), q2]
  have hz : expect T.builtin.sym (initRhoFDM a.T first.shell) (Coef.prodEntry (Coef.stateCounts first.shell.diag) first.B first.A) = 0 := by
    unfold expect initRhoFDM
    rw [List.map_map]
    apply List.sum_eq_zero
    intro x hx
    obtain ⟨d, hd, rfl⟩ := List.mem_map.1 hx
    simp only [Function.comp_def]
    have hempty : d.all = [] := by
      have h1 := hall d hd
      have h2 := hok.flag d hd
      simp [Thermo.Sub.all, Thermo.Sub.min, Thermo.Sub.max, h1, h2]
    simp [hempty]
  rw [hz, add_zero]
  unfold expect
  congr 1
  apply List.map_congr_left
  intro p hp
  congr 1
  obtain ⟨b, hb, c1, c2⟩ := k2.2.1 p hp
  obtain ⟨E, hE, hle⟩ := hstore _ (Dm.mem_of_lookup _ _ _ hb)
  dsimp only at hE hle
  obtain ⟨M, hM, _, _, he⟩ := hprod (p.1, E.nr) (List.mem_map.2 ⟨_, Dm.mem_of_lookup _ _ _ hE, rfl⟩)
  dsimp only at hM he
  refine sum_congr rfl fun x hx => sum_congr rfl fun y hy => ?_
  have hx' := mem_range.1 hx
  have hy' := mem_range.1 hy
  unfold diagonalOf
  rw [hM]
  simp only [Ops.optEntry]
  rw [he y (by omega) x (by omega)]

end Verif.Sumrule
