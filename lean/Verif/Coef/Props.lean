import Verif.Coef.TargetsSum
import Verif.Coef.Keep
import Verif.Coef.Singular
import Verif.Oper.Props
/-!
# C75, C76: carrying operators to the next step, with the values of the factors
-/

namespace Verif.Coef
open Verif.Invar Verif.Symm Verif.Oper Verif.Dm Verif.Mat Finset

variable {𝕜 : Type} [RCLike 𝕜]

/-- **C76.**  When a step keeps all states, carrying two operators to it and multiplying
them there gives the same matrix elements as carrying their product, a scalar operator.
The scalar is carried by `recalc_singlet`, the operators by the function `T`. -/
theorem product_carried_partial (T : OpTable) (hT : T ∈ opTables) (hW : T.Works) (hu : T.id ∉ unevaluated)
    (old : Sizes) (diag : DiagU 𝕜) (sub : List (Label × List Nat)) (hk : KeepsAll T old diag sub)
    (hreg : ∀ p ∈ diag, Regular T p.1) (A B P : Ops.Elements 𝕜) (hA : OperatorOn T old A) (hB : OperatorOn T old B)
    (hP : IsProduct old A B P) :
    ∃ A' B', recalcOp T diag sub A = some A' ∧ recalcOp T diag sub B = some B' ∧
      ∀ p ∈ diag, ∃ M,
        Ops.recalcSinglet1 T.builtin.sym diag sub P ((invarSinglet.lookup T.builtin.symtype).getD []) p.1 = some (some M) ∧
        M.r = p.2.nr ∧ M.c = p.2.nr ∧
        ∀ a < p.2.nr, ∀ b < p.2.nr, M.e a b = prodEntry (stateCounts diag) A' B' p.1 a b := by
  have hs := nothingLost hT hk
  have ho : ∀ p ∈ diag, Orthonormal T (T.factor p.1) p.1 := by
    intro p hp
    obtain ⟨v, _, z⟩ := hs.labels.valid _ (diag_mem hs hp)
    exact tables_orthonormal T hT hW hu p.1 v z (hreg p hp)
  obtain ⟨d, V, hb⟩ := exists_bases hs
  obtain ⟨A', eA, ndA, keyA, valA⟩ := operator_value hT hW hs hb ho hA
  obtain ⟨B', eB, ndB, keyB, valB⟩ := operator_value hT hW hs hb ho hB
  refine ⟨A', B', eA, eB, fun p hp => ?_⟩
  obtain ⟨M, hM, hr, hc, he⟩ := singlet_value hT hW hs hb hP hp
  refine ⟨M, hM, hr, hc, fun a ha b hb' => ?_⟩
  rw [he a ha b hb']
  obtain ⟨vI, _, zI⟩ := hs.labels.valid _ (diag_mem hs hp)
  dsimp only at vI zI
  have hap := tables_apartOk T hT hW
  simp only [apartOk, decide_eq_true_eq] at hap
  have key : ∀ q ∈ diag, (∑ c ∈ range q.2.nr, Ops.optEntry (A'.lookup (p.1, q.1)) a c *
        star (Ops.optEntry (B'.lookup (p.1, q.1)) b c)) =
      (T.targets.map fun t => if q.1 = evalLabel t.shift p.1 ∧ 0 < q.2.nr ∧
          triangle T.builtin.sym.fields p.1 (evalLabel t.shift p.1) t.iop = true then
        Ops.conjugate (V p) (fun x x' => ∑ y ∈ range (V q).c,
          Ops.assembled (d p) (d q) A (valTable 𝕜 T p.1 (t.rows.getD [])) x y *
          star (Ops.assembled (d p) (d q) B (valTable 𝕜 T p.1 (t.rows.getD [])) x' y)) (V p) a b else 0).sum := by
    intro q hq
    by_cases ht : ∃ t ∈ T.targets, q.1 = evalLabel t.shift p.1 ∧ 0 < q.2.nr ∧
        triangle T.builtin.sym.fields p.1 (evalLabel t.shift p.1) t.iop = true
    · obtain ⟨t, ht, h1, h2, h3⟩ := ht
      rw [sum_single T.targets _ hap (fun t => q.1 = evalLabel t.shift p.1 ∧ 0 < q.2.nr ∧
        triangle T.builtin.sym.fields p.1 (evalLabel t.shift p.1) t.iop = true)
        (fun s s' hap' h => apart_eval hap' vI (by rw [← h.1.1, ← h.2.1])) _ t ht ⟨h1, h2, h3⟩]
      obtain ⟨MA, lA, _, _, vA⟩ := valA p hp t ht q hq h1 (by omega) h2 h3
      obtain ⟨MB, lB, _, _, vB⟩ := valB p hp t ht q hq h1 (by omega) h2 h3
      rw [← conjugate_mul (V p) (V q) _ _ q.2.nr (hb.ortho q hq)]
      refine Finset.sum_congr rfl fun c hc => ?_
      rw [Finset.mem_range] at hc
      rw [lA, lB]
      simp only [Ops.optEntry]
      rw [vA a ha c hc, vB b hb' c hc]
    · rw [List.sum_eq_zero]
      · refine Finset.sum_eq_zero fun c hc => ?_
        rw [Finset.mem_range] at hc
        have : A'.lookup (p.1, q.1) = none := by
          by_contra hn
          obtain ⟨X, hX⟩ := Option.ne_none_iff_exists'.1 hn
          obtain ⟨p', hp', t, ht', e1, _, _, e4⟩ := keyA _ (mem_of_lookup' _ _ _ hX)
          obtain ⟨g1, g2⟩ := Prod.mk.inj e1
          refine ht ⟨t, ht', by rw [g2, g1], by omega, by rw [g1]; exact e4⟩
        rw [this]
        simp [Ops.optEntry]
      · intro z hz
        obtain ⟨t, ht', rfl⟩ := List.mem_map.1 hz
        exact if_neg fun h => ht ⟨t, ht', h⟩
  have e0 : prodEntry (stateCounts diag) A' B' p.1 a b = (diag.map fun q => ∑ c ∈ range q.2.nr,
      Ops.optEntry (A'.lookup (p.1, q.1)) a c * star (Ops.optEntry (B'.lookup (p.1, q.1)) b c)).sum := by
    unfold prodEntry stateCounts
    rw [List.map_map]
    rfl
  rw [e0, List.map_congr_left key, Dm.sum_swap]
  have e1 : ∀ (g : ℕ → ℕ → 𝕜) (c : Prop) [Decidable c],
      (if c then Ops.conjugate (V p) g (V p) a b else 0) = Ops.conjugate (V p) (fun x x' => if c then g x x' else 0) (V p) a b := by
    intro g c _
    by_cases h : c
    · simp [h]
    · simp [h, Ops.conjugate]
  simp only [e1]
  simp only [conjugate_list]
  refine Ops.conjugate_congr _ _ _ _ _ _ fun x hx x' hx' => ?_
  have hcols := (hb.rows p hp).cols
  rw [hcols] at hx hx'
  exact (targets_sum hT hW hs hb ho hA hB hp hx hx').symm


/-- One orbital with its four states, and the creation operator on it, in the symmetry QS:
all hypotheses are met. -/
example : ∃ (diag : DiagU ℂ) (sub : List (Label × List Nat)) (A P : Ops.Elements ℂ),
    KeepsAll op_QS_1ch_doublet [([-1, 1], 1), ([0, 2], 1), ([1, 1], 1)] diag sub ∧
    OperatorOn op_QS_1ch_doublet [([-1, 1], 1), ([0, 2], 1), ([1, 1], 1)] A ∧ A.length = 2 ∧
    IsProduct [([-1, 1], 1), ([0, 2], 1), ([1, 1], 1)] A A P ∧ op_QS_1ch_doublet.Works ∧
    op_QS_1ch_doublet.id ∉ unevaluated ∧ (∀ p ∈ diag, Regular op_QS_1ch_doublet p.1) ∧ diag.length = 6 := by
  have hT : op_QS_1ch_doublet ∈ opTables := by unfold opTables; simp
  obtain ⟨sub, hsub, h⟩ := keepsAll_exists (𝕜 := ℂ) op_QS_1ch_doublet hT [([-1, 1], 1), ([0, 2], 1), ([1, 1], 1)]
    (by decide +kernel) (by
      have : ∀ q ∈ [(([-1, 1] : Label), 1), ([0, 2], 1), ([1, 1], 1)], Symm.Physical fields_QS q.1 := by decide
      exact fun q hq => ⟨this q hq, fun h => absurd h (by decide)⟩)
  refine ⟨_, sub, [(([0, 2], [-1, 1]), ⟨1, 1, fun _ _ => 1⟩), (([1, 1], [0, 2]), ⟨1, 1, fun _ _ => 2⟩)],
    [([-1, 1], 1), ([0, 2], 1), ([1, 1], 1)].map fun q => ((q.1, q.1), ⟨q.2, q.2, prodEntry [([-1, 1], 1), ([0, 2], 1), ([1, 1], 1)]
      [(([0, 2], [-1, 1]), ⟨1, 1, fun _ _ => 1⟩), (([1, 1], [0, 2]), ⟨1, 1, fun _ _ => 2⟩)]
      [(([0, 2], [-1, 1]), ⟨1, 1, fun _ _ => 1⟩), (([1, 1], [0, 2]), ⟨1, 1, fun _ _ => 2⟩)] q.1⟩),
    h, ⟨?_, ?_⟩, rfl, ?_, by decide, by decide, ?_, ?_⟩
  · intro p hp
    simp only [List.mem_cons, List.not_mem_nil, or_false] at hp
    rcases hp with rfl | rfl <;> exact ⟨rfl, rfl⟩
  · intro p hp
    simp only [List.mem_cons, List.not_mem_nil, or_false] at hp
    rcases hp with rfl | rfl
    · exact ⟨[1, 2], by decide, ⟨by change Couples1 "Q" .additive 0 (-1) 1; simp [Couples1], by decide⟩,
        ⟨by change Couples1 "SS" .additive 2 1 2; simp [Couples1, SpinsCouple], by decide⟩, trivial⟩
    · exact ⟨[1, 2], by decide, ⟨by change Couples1 "Q" .additive 1 0 1; simp [Couples1], by decide⟩,
        ⟨by change Couples1 "SS" .additive 1 2 2; simp [Couples1, SpinsCouple], by decide⟩, trivial⟩
  · intro q hq
    simp only [List.mem_cons, List.not_mem_nil, or_false] at hq
    rcases hq with rfl | rfl | rfl <;> exact ⟨_, rfl, rfl, rfl, fun _ _ _ _ => rfl⟩
  · intro p _ e he h
    have : ∀ e ∈ singular, e.1 ≠ op_QS_1ch_doublet.id := by decide
    exact absurd h (this e he)
  · have : (substruct op_QS_1ch_doublet.builtin.sym [([-1, 1], 1), ([0, 2], 1), ([1, 1], 1)]).map
        (fun s => (s.filter fun e => e.2.sum != 0).length) = some 6 := by decide +kernel
    rw [hsub] at this
    simpa using this

/-! ### C75 -/

open Classical in
/-- **C75, with the actual factors.**  Operators with blocks between subspaces they connect
keep all their blocks, and no factor stops the run. -/
theorem operator_carried_finite (T : OpTable) (hT : T ∈ opTables) (hW : T.Works) (hu : T.id ∉ unevaluated)
    (old diag : Sizes) (hold : LabelsOK T old) (hd : LabelsOK T diag) (hreg : ∀ p ∈ diag, Regular T p.1)
    (cold : List OpMatrix) (hc : Fits old cold) (hcar : ∀ m ∈ cold, ∃ c ∈ T.iops, Carries T.builtin.sym.fields m.bra m.ket c) :
    ∃ new, recalcOperator T (fun I k => decide ((T.factor I k).toReal.isSome = true)) old diag cold = some new ∧
      (new.map fun m => (m.bra, m.ket)).Nodup ∧ Fits diag new ∧
      (∀ I1 Ip, (∃ m ∈ new, m.bra = I1 ∧ m.ket = Ip) ↔
        0 < sizeSubspace diag I1 ∧ 0 < sizeSubspace diag Ip ∧
        ∃ c ∈ T.iops, Carries T.builtin.sym.fields I1 Ip c) ∧
      (∀ m ∈ new, ∃ t ∈ T.targets, m.ket = evalLabel t.shift m.bra ∧ ∃ rs, t.rows = some rs ∧
        ∀ i j, (i, j) ∈ m.terms ↔
          Involved T.builtin.sym old cold m.bra m.ket i j ∧ ∃ r ∈ rs, r.i1 = i ∧ r.ip = j) := by
  refine operator_carried T hT hW _ old diag (fun p hp => ⟨(hd.valid p hp).1, (hd.valid p hp).2.2⟩) hd.nodup cold hc ?_
  intro p hp t ht htr rs hrs r hr hinv
  obtain ⟨vI, _, zI⟩ := hd.valid p hp
  have ho := tables_orthonormal T hT hW hu p.1 vI zI (hreg p hp)
  obtain ⟨x, y, A, B, i1, ip, e1, e2, c1, c2, _, _, t1, t2, sA, sB, m, hm, rfl, rfl⟩ := hinv
  have k1 : couplesTo T.builtin.sym p.1 (r.i1 - 1) m.bra = true := by
    simp only [couplesTo, Symmetry.ancestor, e1, Option.bind_eq_bind, Option.bind_some, c1, beq_self_eq_true, Bool.true_and]
    exact t1
  have k2 : couplesTo T.builtin.sym (evalLabel t.shift p.1) (r.ip - 1) m.ket = true := by
    simp only [couplesTo, Symmetry.ancestor, e2, Option.bind_eq_bind, Option.bind_some, c2, beq_self_eq_true, Bool.true_and]
    exact t2
  have hA' := hold.valid _ (mem_of_size sA)
  have hB' := hold.valid _ (mem_of_size sB)
  obtain ⟨s, hs, he, hts⟩ := (targets_spec hT hW hA'.1 hA'.2.2 hB'.1).2 (hcar m hm)
  have hre : Reaches T p.1 r.i1 m.ket := ⟨m.bra, i1, k1, hA'.1, hA'.2.2, s, hs, he, hts⟩
  have := (ho r.i1 r.i1 _ hre hre).2 t ht htr r (by rw [hrs]; exact hr) rfl k2
  simpa using this

/-- The same step of the symmetry QS as above. -/
example : LabelsOK op_QS_1ch_doublet [([-1, 1], 1), ([0, 2], 1), ([1, 1], 1)] ∧
    (∀ p ∈ [(([-1, 2] : Label), 2), ([0, 1], 3)], Regular op_QS_1ch_doublet p.1) ∧
    Fits [([-1, 1], 1), ([0, 2], 1), ([1, 1], 1)] [⟨[0, 2], [-1, 1], 1, 1, []⟩] ∧
    ∃ c ∈ op_QS_1ch_doublet.iops, Carries op_QS_1ch_doublet.builtin.sym.fields [0, 2] [-1, 1] c := by
  refine ⟨⟨by decide, ?_⟩, ?_, ?_, [1, 2], by decide, ⟨by change Couples1 "Q" .additive 0 (-1) 1; simp [Couples1], by decide⟩,
    ⟨by change Couples1 "SS" .additive 2 1 2; simp [Couples1, SpinsCouple], by decide⟩, trivial⟩
  · have h1 : ∀ q ∈ [(([-1, 1] : Label), 1), ([0, 2], 1), ([1, 1], 1)], Symm.Physical fields_QS q.1 ∧ allowed fields_QS q.1 = true := by
      decide
    exact fun q hq => ⟨physical_valid (h1 q hq).1, (h1 q hq).2, fun h => absurd h (by decide)⟩
  · intro p _ e he h
    have : ∀ e ∈ singular, e.1 ≠ op_QS_1ch_doublet.id := by decide
    exact absurd h (this e he)
  · intro m hm
    simp only [List.mem_singleton] at hm
    subst hm
    exact ⟨rfl, rfl⟩

/-! ### Factors that stop the run -/

/-- **C75 (defect).** `recalc_triplet` of QS with three channels stops at subspaces of spin
1/2, if the triplet operator had a block between spins 2 and 1: the factor is zero times
infinity. -/
theorem qs3_triplet_stops (old : Sizes) (diag : DiagU 𝕜) (sub : List (Label × List Nat)) (O : Ops.Elements 𝕜) (q : Int)
    (h : Meets op_QS_3ch_triplet old diag sub O [q, 2] [q, 5] [q, 3]) : recalcOp op_QS_3ch_triplet diag sub O = none := by
  refine stops_of_meets (by unfold opTables; simp) (by decide +kernel) h
    (by change Valid (types fields_QS) _; simp [types, Valid, fields_QS, Valid1])
    (by decide +kernel) 0 _ rfl (by simp [evalLabel, Comp.eval])
    (by change triangle fields_QS _ _ _ = true; simp [triangle, fields_QS, evalTest, u1Equality]; decide) 80 _ rfl
    (by change evalLabel ((labs_QS[28]?).getD []) _ = _; simp [labs_QS, evalLabel, Comp.eval])
    (by change evalLabel ((labs_QS[1]?).getD []) _ = _; simp [labs_QS, evalLabel, Comp.eval])
    (by change allowed fields_QS _ = true; simp [allowed, fields_QS, evalAllow])
    (by change allowed fields_QS _ = true; simp [allowed, fields_QS, evalAllow])
    _ _ rfl (by change triangle fields_QS _ _ _ = true; simp [triangle, fields_QS, evalTest, u1Equality]; decide)
    rfl (by change triangle fields_QS _ _ _ = true; simp [triangle, fields_QS, evalTest, u1Equality]; decide)
    (factor_nan rfl (factor_QS _ ?_ _ rfl))
  change labelEnv fields_QS _ _ = _
  simp [labelEnv, fields_QS, spinVal]; norm_num

/-- **C75 (defect).** The same for QS with four channels. -/
theorem qs4_triplet_stops (old : Sizes) (diag : DiagU 𝕜) (sub : List (Label × List Nat)) (O : Ops.Elements 𝕜) (q : Int)
    (h : Meets op_QS_4ch_triplet old diag sub O [q, 2] [q + 1, 5] [q + 1, 3]) : recalcOp op_QS_4ch_triplet diag sub O = none := by
  refine stops_of_meets (by unfold opTables; simp) (by decide +kernel) h
    (by change Valid (types fields_QS) _; simp [types, Valid, fields_QS, Valid1])
    (by decide +kernel) 0 _ rfl (by simp [evalLabel, Comp.eval])
    (by change triangle fields_QS _ _ _ = true; simp [triangle, fields_QS, evalTest, u1Equality]; decide) 157 _ rfl
    (by change evalLabel ((labs_QS[44]?).getD []) _ = _; simp [labs_QS, evalLabel, Comp.eval])
    (by change evalLabel ((labs_QS[9]?).getD []) _ = _; simp [labs_QS, evalLabel, Comp.eval])
    (by change allowed fields_QS _ = true; simp [allowed, fields_QS, evalAllow])
    (by change allowed fields_QS _ = true; simp [allowed, fields_QS, evalAllow])
    _ _ rfl (by change triangle fields_QS _ _ _ = true; simp [triangle, fields_QS, evalTest, u1Equality]; decide)
    rfl (by change triangle fields_QS _ _ _ = true; simp [triangle, fields_QS, evalTest, u1Equality]; decide)
    (factor_nan rfl (factor_QS _ ?_ _ rfl))
  change labelEnv fields_QS _ _ = _
  simp [labelEnv, fields_QS, spinVal]; norm_num

/-- **C75 (defect).** The same for QSTZ. -/
theorem qstz_triplet_stops (old : Sizes) (diag : DiagU 𝕜) (sub : List (Label × List Nat)) (O : Ops.Elements 𝕜) (q tz : Int)
    (h : Meets op_QSTZ_3ch_triplet old diag sub O [q, 2, tz] [q, 5, tz] [q, 3, tz]) : recalcOp op_QSTZ_3ch_triplet diag sub O = none := by
  refine stops_of_meets (by unfold opTables; simp) (by decide +kernel) h
    (by change Valid (types fields_QSTZ) _; simp [types, Valid, fields_QSTZ, Valid1])
    (by decide +kernel) 0 _ rfl (by simp [evalLabel, Comp.eval])
    (by change triangle fields_QSTZ _ _ _ = true; simp [triangle, fields_QSTZ, evalTest, u1Equality]; decide) 80 _ rfl
    (by change evalLabel ((labs_QSTZ[23]?).getD []) _ = _; simp [labs_QSTZ, evalLabel, Comp.eval])
    (by change evalLabel ((labs_QSTZ[16]?).getD []) _ = _; simp [labs_QSTZ, evalLabel, Comp.eval])
    (by change allowed fields_QSTZ _ = true; simp [allowed, fields_QSTZ, evalAllow])
    (by change allowed fields_QSTZ _ = true; simp [allowed, fields_QSTZ, evalAllow])
    _ _ rfl (by change triangle fields_QSTZ _ _ _ = true; simp [triangle, fields_QSTZ, evalTest, u1Equality]; decide)
    rfl (by change triangle fields_QSTZ _ _ _ = true; simp [triangle, fields_QSTZ, evalTest, u1Equality]; decide)
    (factor_nan rfl (factor_QSTZ _ ?_ _ rfl))
  change labelEnv fields_QSTZ _ _ = _
  simp [labelEnv, fields_QSTZ, spinVal]; norm_num

/-- **C75 (defect).** The same for SPSU2T. -/
theorem spsu2t_triplet_stops (old : Sizes) (diag : DiagU 𝕜) (sub : List (Label × List Nat)) (O : Ops.Elements 𝕜) (t : Int) (ht : 0 ≤ t)
    (h : Meets op_SPSU2T_3ch_triplet old diag sub O [2, t] [5, t] [3, t]) : recalcOp op_SPSU2T_3ch_triplet diag sub O = none := by
  refine stops_of_meets (by unfold opTables; simp) (by decide +kernel) h
    (by change Valid (types fields_SPSU2T) _; simp [types, Valid, fields_SPSU2T, Valid1])
    (by decide +kernel) 0 _ rfl (by simp [evalLabel, Comp.eval])
    (by change triangle fields_SPSU2T _ _ _ = true; simp only [triangle, fields_SPSU2T, evalTest, Bool.and_true, Bool.and_eq_true]; exact ⟨by decide, by rw [su2Triangle_iff]; simp only [SpinsCouple, abs_le]; omega⟩) 120 _ rfl
    (by change evalLabel ((labs_SPSU2T[27]?).getD []) _ = _; simp [labs_SPSU2T, evalLabel, Comp.eval])
    (by change evalLabel ((labs_SPSU2T[6]?).getD []) _ = _; simp [labs_SPSU2T, evalLabel, Comp.eval])
    (by change allowed fields_SPSU2T _ = true; simp [allowed, fields_SPSU2T, evalAllow]; exact ht)
    (by change allowed fields_SPSU2T _ = true; simp [allowed, fields_SPSU2T, evalAllow]; exact ht)
    _ _ rfl (by change triangle fields_SPSU2T _ _ _ = true; simp only [triangle, fields_SPSU2T, evalTest, Bool.and_true, Bool.and_eq_true]; exact ⟨by decide, by rw [su2Triangle_iff]; simp only [SpinsCouple, abs_le]; omega⟩)
    rfl (by change triangle fields_SPSU2T _ _ _ = true; simp only [triangle, fields_SPSU2T, evalTest, Bool.and_true, Bool.and_eq_true]; exact ⟨by decide, by rw [su2Triangle_iff]; simp only [SpinsCouple, abs_le]; omega⟩)
    (factor_nan (e := factor513) (by decide +kernel) (factor_SPSU2T _ ?_))
  change labelEnv fields_SPSU2T _ _ = _
  simp [labelEnv, fields_SPSU2T, spinVal]; norm_num

/-- The situation occurs. -/
example : ∃ (diag : DiagU ℂ) (sub : List (Label × List Nat)) (O : Ops.Elements ℂ),
    Meets op_QS_3ch_triplet [([0, 3], 1), ([0, 5], 1)] diag sub O [0, 2] [0, 5] [0, 3] := by
  have h : (subspaceDims op_QS_3ch_triplet.builtin.sym [([0, 3], 1), ([0, 5], 1)] [0, 2]).isSome = true := by decide +kernel
  obtain ⟨d, hd⟩ := Option.isSome_iff_exists.1 h
  exact ⟨[([0, 2], ⟨[], 2⟩)], [([0, 2], d)], [(([0, 5], [0, 3]), ⟨1, 1, fun _ _ => 1⟩)], by decide,
    ⟨_, List.mem_singleton_self _, rfl, by decide⟩, ⟨d, by simp, hd⟩, by decide, by decide, rfl⟩

end Verif.Coef
