import Verif.Sumrule.SumProps
/-!
# Runs that meet the hypotheses of C77 and C78

From any states and operators of a first step, a second step is built that keeps all states, with
the product states themselves as eigenvectors.
-/

namespace Verif.Sumrule
open Verif.Invar Verif.Symm Verif.Mat Verif.Dm Verif.Spectral Verif.Oper Finset

theorem mult_pos_of_physical {fs : List Field} (hf : ∀ f ∈ fs, goodField f = true) {J : Label} (h : Symm.Physical fs J) :
    0 < mult fs J := by
  induction fs generalizing J with
  | nil => cases h; exact Int.one_pos
  | cons f fs ih =>
    cases h with | cons h1 h2 =>
    have h3 := ih (fun g hg => hf g (List.mem_cons_of_mem _ hg)) h2
    have := hf f List.mem_cons_self
    obtain ⟨_, h4, h5⟩ := h1
    obtain ⟨nm, t, te, m, al⟩ := f
    dsimp only at h4 h5
    simp only [mult]
    refine mul_pos ?_ h3
    cases te <;> cases t <;> cases m <;> cases al <;> simp [goodField] at this <;> simp only [evalMult]
    all_goals first
      | exact Int.one_pos
      | exact h4 rfl
      | (have := h5 rfl; omega)

/-- A spectrum with all energies zero. -/
def exThermo (diag : DiagU ℂ) (last : Bool) : Thermo.Shell :=
  diag.map fun q => ⟨q.1, ⟨List.replicate q.2.nr 0, 1, 0, 0, 0⟩, q.2.nr, q.2.nr, last⟩

/-- A step with this spectrum, at temperature 1. -/
noncomputable def exStep (S : Symmetry) (store : BackShell) (diag : DiagU ℂ) (last : Bool) (A B : Ops.Elements ℂ) : SpecStep :=
  ⟨⟨⟨store, diag⟩, exThermo diag last, Thermo.shellSum (multN S) (fun d i => Real.exp (-(d.vals.absG i) / 1)) (exThermo diag last),
    Thermo.shellSum (multN S) (fun d i => Real.exp (-(d.vals.absZero i) / 1)) (exThermo diag last)⟩, 1, A, B⟩

theorem exThermo_mem {diag : DiagU ℂ} {last : Bool} {d : Thermo.Sub} (h : d ∈ exThermo diag last) :
    ∃ q ∈ diag, d = ⟨q.1, ⟨List.replicate q.2.nr 0, 1, 0, 0, 0⟩, q.2.nr, q.2.nr, last⟩ := by
  obtain ⟨q, hq, e⟩ := List.mem_map.1 h
  exact ⟨q, hq, e.symm⟩

theorem exStep_weights (S : Symmetry) (store : BackShell) (diag : DiagU ℂ) (last : Bool) (A B : Ops.Elements ℂ)
    (hm : ∀ q ∈ diag, 0 < mult S.fields q.1) : WeightsOK S 1 (exStep S store diag last A B) := by
  refine ⟨rfl, ?_, ⟨0, 0, ?_⟩, ?_⟩
  · change _ = 1 * _
    rw [one_mul]; rfl
  · intro d hd
    obtain ⟨q, _, rfl⟩ := exThermo_mem hd
    exact ⟨rfl, rfl⟩
  · intro d hd
    obtain ⟨q, hq, rfl⟩ := exThermo_mem hd
    exact hm q hq

theorem exStep_spectrum (S : Symmetry) (store : BackShell) (diag : DiagU ℂ) (last : Bool) (A B : Ops.Elements ℂ)
    (h : keptSizes store = Coef.stateCounts diag) : SpectrumOK last (exStep S store diag last A B).shell := by
  refine ⟨?_, ?_, ?_, ?_⟩
  · simp [exStep, exThermo, Coef.stateCounts, Function.comp_def]
  · change _ = keptSizes store
    rw [h]
    simp [exStep, exThermo, Coef.stateCounts, Function.comp_def]
  · intro d hd
    obtain ⟨q, _, rfl⟩ := exThermo_mem hd
    exact le_rfl
  · intro d hd
    obtain ⟨q, _, rfl⟩ := exThermo_mem hd
    rfl

theorem exStep_f (S : Symmetry) (store : BackShell) (diag : DiagU ℂ) (last : Bool) (A B : Ops.Elements ℂ)
    (hn : (diag.map Prod.fst).Nodup) (hm : ∀ q ∈ diag, 0 < mult S.fields q.1) :
    ThermoOK (exStep S store diag last A B).shell ∧ WeightOK S 1 (exStep S store diag last A B).shell ∧
      ∀ d ∈ (exStep S store diag last A B).shell.thermo, 0 ≤ mult S.fields d.label := by
  refine ⟨⟨?_, ?_⟩, ⟨rfl, 1, zero_le_one, ?_⟩, ?_⟩
  · have : (exStep S store diag last A B).shell.thermo.map Thermo.Sub.label = diag.map Prod.fst := by
      simp [exStep, exThermo, Function.comp_def]
    rw [this]; exact hn
  · intro d hd
    obtain ⟨q, hq, rfl⟩ := exThermo_mem hd
    exact ⟨q.2, lookup_of_mem _ hn q hq, le_rfl⟩
  · rw [one_mul]; rfl
  · intro d hd
    obtain ⟨q, hq, rfl⟩ := exThermo_mem hd
    exact (hm q hq).le

theorem trim_total (sizes : Sizes) (O : Ops.Elements ℂ)
    (h : ∀ e ∈ O, sizeSubspace sizes e.1.1 ≤ e.2.r ∧ sizeSubspace sizes e.1.2 ≤ e.2.c) : ∃ O', trimElements sizes O = some O' := by
  unfold trimElements
  suffices h : ∀ e ∈ O, ∃ y, (do let M ← trim e.2 (sizeSubspace sizes e.1.1) (sizeSubspace sizes e.1.2); pure (e.1, M)) = some y ∧ True by
    obtain ⟨r, hr, _⟩ := Dm.mapM_exists O _ (fun _ _ => True) h
    exact ⟨r, hr⟩
  intro e he
  obtain ⟨s1, s2⟩ := Mat.trim_spec e.2 (sizeSubspace sizes e.1.1) (sizeSubspace sizes e.1.2)
  by_cases h0 : e.2.r = 0 ∨ e.2.c = 0
  · exact ⟨_, by rw [s1 h0]; rfl, trivial⟩
  · obtain ⟨C, hC, _⟩ := (s2 (fun h => h0 (Or.inl h)) fun h => h0 (Or.inr h)).1 (h e he)
    exact ⟨_, by rw [hC]; rfl, trivial⟩

/-- The first step: all states are kept. -/
def firstDiag (old : Sizes) : DiagU ℂ := old.map fun q => (q.1, ⟨[], q.2⟩)
def firstStore (old : Sizes) : BackShell := old.map fun q => (q.1, ⟨[], q.2⟩)

theorem firstStore_sizes (old : Sizes) : keptSizes (firstStore old) = old := by
  simp [firstStore, keptSizes, Function.comp_def]

theorem firstDiag_counts (old : Sizes) : Coef.stateCounts (firstDiag old) = old := by
  simp [firstDiag, Coef.stateCounts, Function.comp_def]

/-- The second step. -/
noncomputable def nextDiag (sub : List (Label × List ℕ)) : DiagU ℂ :=
  (sub.filter fun e => e.2.sum != 0).map fun e => (e.1, Coef.idEig ℂ e.2)
def nextStore (sub : List (Label × List ℕ)) : BackShell :=
  (sub.filter fun e => e.2.sum != 0).map fun e => (e.1, ⟨e.2, e.2.sum⟩)

theorem nextStore_sizes (sub : List (Label × List ℕ)) : keptSizes (nextStore sub) = Coef.stateCounts (nextDiag sub) := by
  simp [nextStore, nextDiag, keptSizes, Coef.stateCounts, Function.comp_def, Coef.idEig]

/-- From any operators of a first step: a run of two steps that meets the hypotheses. -/
theorem runs_exist (T : OpTable) (hT : T ∈ opTables) (hW : T.Works) (hu : T.id ∉ Coef.unevaluated) (hreg : ∀ I, Coef.Regular T I)
    (old : Sizes) (hn : (old.map Prod.fst).Nodup) (hpos : ∀ q ∈ old, 0 < q.2)
    (hl : ∀ q ∈ old, Symm.Physical T.builtin.sym.fields q.1 ∧ (T.builtin.symtype = "NONE" → q.1 = [0]))
    (A B : Ops.Elements ℂ) (hA : OperatorAll T (firstDiag old) A) (hB : OperatorAll T (firstDiag old) B) :
    ∃ sub A1 B1, substruct T.builtin.sym old = some sub ∧
      let prev := exStep T.builtin.sym (firstStore old) (firstDiag old) false A B
      let cur := exStep T.builtin.sym (nextStore sub) (nextDiag sub) true A1 B1
      FHistory T.builtin.sym 1 [cur.shell, prev.shell] ∧ SpectraOK true [cur, prev] ∧
      (∀ st ∈ [cur, prev], WeightsOK T.builtin.sym 1 st) ∧ OperatorHistory T [cur, prev] ∧
      (∀ s ∈ [cur.shell, prev.shell], LabelsPhysical T.builtin.sym s.toShell) := by
  have hgood : ∀ f ∈ T.builtin.sym.fields, goodField f = true := by
    obtain ⟨ms, hdec⟩ := builtins_decompose _ (table_builtin hT)
    simp only [decomposes, Bool.and_eq_true, List.all_eq_true] at hdec
    exact hdec.1.1
  obtain ⟨sub, hsub, hk⟩ := Coef.keepsAll_exists (𝕜 := ℂ) T hT old hn hl
  have hs := Coef.nothingLost hT hk
  change Coef.KeepsAll T old (nextDiag sub) sub at hk
  change Coef.NothingLost T old (nextDiag sub) sub at hs
  have hpm : ∀ q ∈ firstDiag old, 0 < mult T.builtin.sym.fields q.1 := by
    intro q hq
    obtain ⟨p, hp, rfl⟩ := List.mem_map.1 hq
    exact mult_pos_of_physical hgood (hl p hp).1
  have hcm : ∀ q ∈ nextDiag sub, 0 < mult T.builtin.sym.fields q.1 := fun q hq => mult_pos_of_physical hgood (hs.spins q hq)
  have hpn : ((firstDiag old).map Prod.fst).Nodup := by
    have : (firstDiag old).map Prod.fst = old.map Prod.fst := by simp [firstDiag, Function.comp_def]
    rw [this]; exact hn
  have hcn : ((nextDiag sub).map Prod.fst).Nodup := by
    have := hs.labels.nodup
    simpa [Coef.stateCounts, Function.comp_def] using this
  have hsn : ((nextStore sub).map Prod.fst).Nodup := by
    have : (nextStore sub).map Prod.fst = (nextDiag sub).map Prod.fst := by
      simp [nextStore, nextDiag, Function.comp_def]
    rw [this]; exact hcn
  have hall : ∀ O : Ops.Elements ℂ, OperatorAll T (firstDiag old) O → ∃ O1, CarriedBy T (firstStore old) (nextDiag sub) sub O O1 := by
    intro O hO
    have hfit := hO.on.fits
    rw [firstDiag_counts] at hfit
    obtain ⟨O', hO'⟩ := trim_total old O fun e he => by
      obtain ⟨h1, h2⟩ := hfit e he
      exact ⟨h1.ge, h2.ge⟩
    have hp0 : ∀ p ∈ firstDiag old, 0 < p.2.nr := by
      intro q hq
      obtain ⟨p, hp, rfl⟩ := List.mem_map.1 hq
      exact hpos p hp
    have hst : trimElements (keptSizes (firstStore old)) O = some O' := by rw [firstStore_sizes]; exact hO'
    have oO := trim_on hp0 hpn hO hst
    rw [firstStore_sizes] at oO
    have ho : ∀ p ∈ nextDiag sub, Coef.Orthonormal T (T.factor p.1) p.1 := by
      intro p hp
      obtain ⟨v, _, z⟩ := hs.labels.valid _ (Coef.diag_mem hs hp)
      exact Coef.tables_orthonormal T hT hW hu p.1 v z (hreg p.1)
    obtain ⟨d, V, hb⟩ := Coef.exists_bases hs
    obtain ⟨O1, e, _⟩ := Coef.operator_value hT hW hs hb ho oO
    exact ⟨O1, O', hst, e⟩
  obtain ⟨A1, hA1⟩ := hall A hA
  obtain ⟨B1, hB1⟩ := hall B hB
  refine ⟨sub, A1, B1, hsub, ?_⟩
  dsimp only
  refine ⟨⟨⟨⟨?_, ?_, ?_, hcn, ?_⟩, ?_, trivial⟩, ?_⟩, ⟨exStep_spectrum _ _ _ _ _ _ (nextStore_sizes sub),
    exStep_spectrum _ _ _ _ _ _ (by rw [firstStore_sizes, firstDiag_counts]), trivial⟩, ?_, ⟨⟨sub, ?_, fun p _ => hreg p.1, hA1, hB1⟩, hA, hB, hpn, ?_⟩, ?_⟩
  · change ((firstStore old).map Prod.fst).Nodup
    have : (firstStore old).map Prod.fst = old.map Prod.fst := by simp [firstStore, Function.comp_def]
    rw [this]; exact hn
  · intro p hp
    obtain ⟨q, hq, rfl⟩ := List.mem_map.1 hp
    exact ⟨physical_valid (hl q hq).1, mult_pos_of_physical hgood (hl q hq).1⟩
  · intro q hq
    exact ⟨physical_valid (hs.spins q hq), hcm q hq⟩
  · intro q hq
    obtain ⟨e, he, rfl⟩ := List.mem_map.1 hq
    have hm : (e.1, (⟨e.2, e.2.sum⟩ : BackSub)) ∈ nextStore sub := List.mem_map.2 ⟨e, he, rfl⟩
    refine ⟨⟨e.2, e.2.sum⟩, Dm.lookup_of_mem (nextStore sub) hsn _ hm, ?_⟩
    obtain ⟨d, hd, hdim⟩ := substruct_lookup hsub (List.mem_map_of_mem (f := Prod.fst) (List.mem_filter.1 he).1)
    have hed : d = e.2 := by
      obtain ⟨st, hx, hnn, _⟩ := structure_complete T.builtin (table_builtin hT) old hn fun q hq => (hl q hq).1
      rw [hsub] at hx
      have hx' := Option.some.inj hx
      subst hx'
      have := Dm.lookup_of_mem sub hnn e (List.mem_filter.1 he).1
      rw [hd] at this
      exact Option.some.inj this
    subst hed
    refine Ops.holdsRows_eigOK _ _ _ _ _ _ (by
      change subspaceDims T.builtin.sym (keptSizes (firstStore old)) e.1 = some e.2
      rw [firstStore_sizes]; exact hdim) ?_ (Coef.idEig_rows e.2)
      fun a ha b _ => Coef.idEig_ortho _ _ _ ha
    exact (Coef.dims_spec (builtins_rowsValid _ (table_builtin hT)) (physical_valid (hs.spins _ hq)) hdim).1
  · intro p hp
    obtain ⟨q, hq, rfl⟩ := List.mem_map.1 hp
    exact ⟨⟨[], q.2⟩, Dm.lookup_of_mem (firstDiag old) hpn (q.1, ⟨[], q.2⟩) (List.mem_map.2 ⟨q, hq, rfl⟩), le_rfl⟩
  · intro s hs'
    simp only [List.mem_cons, List.not_mem_nil, or_false] at hs'
    rcases hs' with rfl | rfl
    · exact exStep_f _ _ _ _ _ _ hcn hcm
    · exact exStep_f _ _ _ _ _ _ hpn hpm
  · intro s hs'
    simp only [List.mem_cons, List.not_mem_nil, or_false] at hs'
    rcases hs' with rfl | rfl
    · exact exStep_weights _ _ _ _ _ _ hcm
    · exact exStep_weights _ _ _ _ _ _ hpm
  · change Coef.KeepsAll T (keptSizes (firstStore old)) (nextDiag sub) sub
    rw [firstStore_sizes]; exact hk
  · intro q hq
    obtain ⟨p, hp, rfl⟩ := List.mem_map.1 hq
    exact hpos p hp
  · intro s hs'
    simp only [List.mem_cons, List.not_mem_nil, or_false] at hs'
    rcases hs' with rfl | rfl
    · refine ⟨hcn, hs.spins, fun p hp => ?_⟩
      obtain ⟨e, he, rfl⟩ := List.mem_map.1 hp
      exact hs.spins (e.1, Coef.idEig ℂ e.2) (List.mem_map.2 ⟨e, he, rfl⟩)
    · refine ⟨hpn, fun q hq => ?_, fun p hp => ?_⟩
      · obtain ⟨p, hp, rfl⟩ := List.mem_map.1 hq
        exact (hl p hp).1
      · obtain ⟨q, hq, rfl⟩ := List.mem_map.1 hp
        exact (hl q hq).1

/-- The scalar operators of a step can always be carried to the next one. -/
theorem carriedScalar_exists (B : Builtin) (hB : B ∈ builtins) (hne : B.symtype ≠ "SPSU2LR") (cur prev : FShell ℂ) (O : Ops.Elements ℂ)
    (hL : Linked B.sym prev.store cur.toShell) (hp : LabelsPhysical B.sym prev.toShell) (hc : LabelsPhysical B.sym cur.toShell)
    (hst : ∀ p ∈ prev.store, ∃ E, prev.diag.lookup p.1 = some E ∧ p.2.kept ≤ E.nr)
    (hO : ScalarOn prev.diag O) (sub : List (Label × List ℕ)) (hsub : substruct B.sym (keptSizes prev.store) = some sub)
    (hin : ∀ q ∈ cur.diag, q.1 ∈ sub.map Prod.fst) : ∃ O1, CarriedScalar B (cur, O1) (prev, O) := by
  have hv := builtins_rowsValid B hB
  have hgood : ∀ f ∈ B.sym.fields, goodField f = true := by
    obtain ⟨ms, hdec⟩ := builtins_decompose B hB
    simp only [decomposes, Bool.and_eq_true, List.all_eq_true] at hdec
    exact hdec.1.1
  obtain ⟨O', htrim⟩ := trim_total (keptSizes prev.store) O fun e he => by
    obtain ⟨p, hp', e1, e2, e3⟩ := hO.sized e he
    have := kept_le hp.1 hst hp'
    rw [e1, e2, e3]
    exact ⟨this, this⟩
  have hon : SingletOn (keptSizes prev.store) O' := by
    intro A M hM
    rw [trim_lookup htrim] at hM
    obtain ⟨M0, hM0, hM⟩ := Option.bind_eq_some_iff.1 hM
    obtain ⟨p, hp', e1, e2, e3⟩ := hO.sized _ (mem_of_lookup2 _ _ _ hM0)
    obtain ⟨rfl, _⟩ := Prod.mk.inj e1
    dsimp only at e2 e3 hM
    by_cases h0 : p.2.nr = 0
    · have := kept_le hp.1 hst hp'
      rw [(trim_spec M0 _ _).1 (Or.inl (by omega))] at hM
      cases hM
      omega
    · exact trim_size hM (by omega) (by omega)
  suffices h : ∀ p ∈ cur.diag, ∃ y, (do
      let m ← Ops.recalcSinglet1 B.sym cur.diag sub O' ((Oper.invarSinglet.lookup B.symtype).getD []) p.1
      pure (m.toList.map fun M => ((p.1, p.1), M))) = some y ∧ True by
    obtain ⟨r, hr, _⟩ := Dm.mapM_exists cur.diag _ (fun _ _ => True) h
    refine ⟨r.flatten, sub, O', hsub, hin, htrim, ?_⟩
    unfold recalcSinglet
    rw [hr]
    rfl
  intro q hq
  have htri := Oper.singletOk_sound (Oper.builtins_singletOk B hB hne) (physical_valid (hc.2.1 q hq)) (by
    have := hc.2.1 q hq
    unfold Symm.Physical at this
    unfold Oper.Physical
    refine List.Forall₂.imp ?_ this
    intro f x h
    exact ⟨fun h' => h.2.1 h', h.2.2⟩)
  obtain ⟨s, hs, hok⟩ := hL.eigs q hq
  obtain ⟨d, hd1, hd2⟩ := substruct_lookup hsub (hin q hq)
  rw [hok.dims] at hd2
  cases hd2
  obtain ⟨M, hM, _⟩ := singlet_carried hv hL (fun p hp' => Coef.physical_allowed hgood (hp.2.2 p hp')) hon hq htri ⟨s, hs, hd1⟩
  exact ⟨_, by rw [hM]; rfl, trivial⟩

/-- **C78** is not vacuous: one orbital with its four states and its creation operator in the symmetry
QS, and one more site of the chain. -/
example : ∃ (cur prev : SpecStep) (O : Ops.Elements ℂ), FHistory op_QS_1ch_doublet.builtin.sym 1 [cur.shell, prev.shell] ∧
    SpectraOK true [cur, prev] ∧ (∀ st ∈ [cur, prev], WeightsOK op_QS_1ch_doublet.builtin.sym 1 st) ∧
    OperatorHistory op_QS_1ch_doublet [cur, prev] ∧ op_QS_1ch_doublet ∈ opTables ∧ op_QS_1ch_doublet.Works ∧
    op_QS_1ch_doublet.id ∉ Coef.unevaluated ∧ (∀ d ∈ prev.shell.thermo, d.kept = d.dim) ∧ prev.A.length = 2 ∧
    ScalarOn prev.shell.diag O ∧ Coef.IsProduct (Coef.stateCounts prev.shell.diag) prev.B prev.A O ∧ cur.shell.diag.length = 6 := by
  have hT : op_QS_1ch_doublet ∈ opTables := by unfold opTables; simp
  let old : Sizes := [([-1, 1], 1), ([0, 2], 1), ([1, 1], 1)]
  let A : Ops.Elements ℂ := [(([0, 2], [-1, 1]), ⟨1, 1, fun _ _ => 1⟩), (([1, 1], [0, 2]), ⟨1, 1, fun _ _ => 2⟩)]
  have hA : OperatorAll op_QS_1ch_doublet (firstDiag old) A := by
    refine ⟨⟨?_, ?_⟩, by decide, ?_⟩
    · intro p hp
      simp only [A, List.mem_cons, List.not_mem_nil, or_false] at hp
      rcases hp with rfl | rfl <;> exact ⟨rfl, rfl⟩
    · intro p hp
      simp only [A, List.mem_cons, List.not_mem_nil, or_false] at hp
      rcases hp with rfl | rfl
      · exact ⟨[1, 2], by decide, ⟨by change Couples1 "Q" .additive 0 (-1) 1; simp [Couples1], by decide⟩,
          ⟨by change Couples1 "SS" .additive 2 1 2; simp [Couples1, SpinsCouple], by decide⟩, trivial⟩
      · exact ⟨[1, 2], by decide, ⟨by change Couples1 "Q" .additive 1 0 1; simp [Couples1], by decide⟩,
          ⟨by change Couples1 "SS" .additive 1 2 2; simp [Couples1, SpinsCouple], by decide⟩, trivial⟩
    · intro p hp
      simp only [A, List.mem_cons, List.not_mem_nil, or_false] at hp
      rcases hp with rfl | rfl <;> simp [firstDiag, old]
  have hreg : ∀ I, Coef.Regular op_QS_1ch_doublet I := by
    intro I e he h
    have : ∀ e ∈ Coef.singular, e.1 ≠ op_QS_1ch_doublet.id := by decide
    exact absurd h (this e he)
  obtain ⟨sub, A1, B1, hsub, h1, h2, h3, h4, _⟩ := runs_exist op_QS_1ch_doublet hT (by decide) (by decide) hreg old (by decide +kernel)
    (by decide) (by
      have : ∀ q ∈ old, Symm.Physical fields_QS q.1 := by decide
      exact fun q hq => ⟨this q hq, fun h => absurd h (by decide)⟩) A A hA hA
  refine ⟨_, _, old.map fun q => ((q.1, q.1), ⟨q.2, q.2, Coef.prodEntry old A A q.1⟩), h1, h2, h3, h4, hT, by decide, by decide,
    ?_, rfl, ⟨?_, ?_⟩, ?_, ?_⟩
  · intro d hd
    obtain ⟨q, _, rfl⟩ := exThermo_mem hd
    rfl
  · intro e he
    obtain ⟨q, hq, rfl⟩ := List.mem_map.1 he
    exact ⟨(q.1, ⟨[], q.2⟩), List.mem_map.2 ⟨q, hq, rfl⟩, rfl, rfl, rfl⟩
  · intro p hp
    change p ∈ firstDiag old at hp
    simp only [firstDiag, old, List.map_cons, List.map_nil, List.mem_cons, List.not_mem_nil, or_false] at hp
    rcases hp with rfl | rfl | rfl <;> rfl
  · change Coef.IsProduct (Coef.stateCounts (firstDiag old)) A A _
    rw [firstDiag_counts]
    intro q hq
    simp only [old, List.mem_cons, List.not_mem_nil, or_false] at hq
    rcases hq with rfl | rfl | rfl <;> exact ⟨_, rfl, rfl, rfl, fun _ _ _ _ => rfl⟩
  · have : (substruct op_QS_1ch_doublet.builtin.sym old).map (fun s => (s.filter fun e => e.2.sum != 0).length) = some 6 := by
      decide +kernel
    rw [hsub] at this
    change (nextDiag sub).length = 6
    simpa [nextDiag] using this

/-- **C77** is not vacuous: the same run, and the number of electrons in the orbital. -/
example : ∃ (cur prev : FShell ℂ) (O O1 : Ops.Elements ℂ), FHistory op_QS_1ch_doublet.builtin.sym 1 ([(cur, O1), (prev, O)].map Prod.fst) ∧
    (∀ s ∈ [(cur, O1), (prev, O)], LabelsPhysical op_QS_1ch_doublet.builtin.sym s.1.toShell) ∧
    ScalarHistory op_QS_1ch_doublet.builtin [(cur, O1), (prev, O)] ∧ op_QS_1ch_doublet.builtin ∈ builtins ∧
    op_QS_1ch_doublet.builtin.symtype ≠ "SPSU2LR" ∧ O.length = 3 := by
  have hT : op_QS_1ch_doublet ∈ opTables := by unfold opTables; simp
  let old : Sizes := [([-1, 1], 1), ([0, 2], 1), ([1, 1], 1)]
  let O : Ops.Elements ℂ := [(([-1, 1], [-1, 1]), ⟨1, 1, fun _ _ => 0⟩), (([0, 2], [0, 2]), ⟨1, 1, fun _ _ => 1⟩), (([1, 1], [1, 1]), ⟨1, 1, fun _ _ => 2⟩)]
  have hA : OperatorAll op_QS_1ch_doublet (firstDiag old) [] := ⟨⟨by simp, by simp⟩, by simp, by simp⟩
  have hreg : ∀ I, Coef.Regular op_QS_1ch_doublet I := by
    intro I e he h
    have : ∀ e ∈ Coef.singular, e.1 ≠ op_QS_1ch_doublet.id := by decide
    exact absurd h (this e he)
  obtain ⟨sub, A1, B1, hsub, h1, _, _, _, h5⟩ := runs_exist op_QS_1ch_doublet hT (by decide) (by decide) hreg old (by decide +kernel)
    (by decide) (by
      have : ∀ q ∈ old, Symm.Physical fields_QS q.1 := by decide
      exact fun q hq => ⟨this q hq, fun h => absurd h (by decide)⟩) [] [] hA hA
  have hO : ScalarOn (firstDiag old) O := by
    refine ⟨fun e he => ?_, fun p hp => ?_⟩
    · simp only [O, List.mem_cons, List.not_mem_nil, or_false] at he
      rcases he with rfl | rfl | rfl
      · exact ⟨([-1, 1], ⟨[], 1⟩), by simp [firstDiag, old], rfl, rfl, rfl⟩
      · exact ⟨([0, 2], ⟨[], 1⟩), by simp [firstDiag, old], rfl, rfl, rfl⟩
      · exact ⟨([1, 1], ⟨[], 1⟩), by simp [firstDiag, old], rfl, rfl, rfl⟩
    · simp only [firstDiag, old, List.map_cons, List.map_nil, List.mem_cons, List.not_mem_nil, or_false] at hp
      rcases hp with rfl | rfl | rfl <;> rfl
  have hH := h1.1
  obtain ⟨O1, hO1⟩ := carriedScalar_exists op_QS_1ch_doublet.builtin (table_builtin hT) (by decide) _ _ O hH.1 (h5 _ (by simp)) (h5 _ (by simp))
    hH.2.1 hO sub (by
      change substruct _ (keptSizes (firstStore old)) = _
      rw [firstStore_sizes]; exact hsub) (by
      intro q hq
      obtain ⟨e, he, rfl⟩ := List.mem_map.1 hq
      exact List.mem_map_of_mem (f := Prod.fst) (List.mem_filter.1 he).1)
  refine ⟨_, _, O, O1, h1, ?_, ⟨hO1, hO⟩, table_builtin hT, by decide, rfl⟩
  intro s hs
  simp only [List.mem_cons, List.not_mem_nil, or_false] at hs
  rcases hs with rfl | rfl
  · exact h5 _ (by simp)
  · exact h5 _ (by simp)

end Verif.Sumrule
