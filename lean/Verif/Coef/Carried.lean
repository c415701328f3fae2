import Verif.Coef.Product
/-!
# The carried operator, block by block
-/

namespace Verif.Coef
open Verif.Invar Verif.Symm Verif.Oper Verif.Dm Verif.Mat Finset

variable {𝕜 : Type} [RCLike 𝕜]

/-- The sizes of the blocks and the eigenvectors of all subspaces. -/
structure Bases (T : OpTable) (old : Sizes) (diag : DiagU 𝕜) (sub : List (Label × List Nat))
    (d : Label × Eig 𝕜 → List Nat) (V : Label × Eig 𝕜 → Mat 𝕜) : Prop where
  sub : ∀ p ∈ diag, sub.lookup p.1 = some (d p)
  dims : ∀ p ∈ diag, subspaceDims T.builtin.sym old p.1 = some (d p)
  rows : ∀ p ∈ diag, Ops.HoldsRows p.2 (V p) (d p)
  all : ∀ p ∈ diag, p.2.nr = (d p).sum
  ortho : ∀ p ∈ diag, ∀ x < (V p).c, ∀ y < (V p).c,
    ∑ a ∈ range p.2.nr, star ((V p).e a x) * (V p).e a y = if x = y then 1 else 0

theorem exists_bases {T : OpTable} {old : Sizes} {diag : DiagU 𝕜} {sub : List (Label × List Nat)}
    (h : NothingLost T old diag sub) : ∃ d V, Bases T old diag sub d V := by
  have : Inhabited (Mat 𝕜) := ⟨⟨0, 0, fun _ _ => 0⟩⟩
  choose! d V hf using h.full
  refine ⟨d, V, fun p hp => (hf p hp).1, fun p hp => (hf p hp).2.1, fun p hp => (hf p hp).2.2.1, fun p hp => (hf p hp).2.2.2.1,
    fun p hp => ?_⟩
  obtain ⟨_, _, h3, h4, h5⟩ := hf p hp
  rw [h3.cols, ← h4] at h5 ⊢
  exact cols_orthonormal (V p) p.2.nr h5

section
variable {T : OpTable} (hT : T ∈ opTables) (hW : T.Works) {old : Sizes} {diag : DiagU 𝕜} {sub : List (Label × List Nat)}
  (hs : NothingLost T old diag sub) {d : Label × Eig 𝕜 → List Nat} {V : Label × Eig 𝕜 → Mat 𝕜}
  (hb : Bases T old diag sub d V) (ho : ∀ p ∈ diag, Orthonormal T (T.factor p.1) p.1)

include hs in
theorem diag_mem {p : Label × Eig 𝕜} (hp : p ∈ diag) : (p.1, p.2.nr) ∈ stateCounts diag :=
  List.mem_map.2 ⟨p, hp, rfl⟩

include hs in
theorem diag_nodup : (diag.map Prod.fst).Nodup := by
  have := hs.labels.nodup
  simp only [stateCounts, List.map_map] at this
  exact this

include hs in
theorem diag_lookup {p : Label × Eig 𝕜} (hp : p ∈ diag) : diag.lookup p.1 = some p.2 :=
  Dm.lookup_of_mem _ (diag_nodup hs) p hp

include hs in
theorem diag_size {p : Label × Eig 𝕜} (hp : p ∈ diag) : sizeSubspace (stateCounts diag) p.1 = p.2.nr :=
  size_of_mem (p := (p.1, p.2.nr)) hs.labels.nodup (diag_mem hs hp)

include hs in
theorem diag_unique {p q : Label × Eig 𝕜} (hp : p ∈ diag) (hq : q ∈ diag) (h : p.1 = q.1) : p = q := by
  have h1 := diag_lookup hs hp
  rw [h, diag_lookup hs hq] at h1
  exact Prod.ext h (Option.some.inj h1).symm

include hs in
theorem stored_spec {p : Label × Eig 𝕜} (hp : p ∈ diag) (J : Label) :
    haveStored (stateCounts diag) p.1 J = true ↔ 0 < p.2.nr ∧ ∃ q ∈ diag, q.1 = J ∧ 0 < q.2.nr := by
  simp only [haveStored, Bool.and_eq_true, decide_eq_true_eq, diag_size hs hp]
  refine and_congr Iff.rfl ⟨fun h => ?_, ?_⟩
  · have hm := mem_of_size h
    obtain ⟨q, hq, e⟩ := List.mem_map.1 hm
    have e1 := congrArg Prod.fst e
    have e2 := congrArg Prod.snd e
    dsimp only at e1 e2
    exact ⟨q, hq, e1, by rw [e2]; exact h⟩
  · rintro ⟨q, hq, rfl, h⟩
    rw [diag_size hs hq]; exact h

include hT hW hs hb ho in
/-- One block of the carried operator. -/
theorem target_value {O : Ops.Elements 𝕜} (hO : OperatorOn T old O) {p : Label × Eig 𝕜} (hp : p ∈ diag) {t : OpTarget}
    (ht : t ∈ T.targets) : ∃ o, recalcTargetV T diag sub O p.1 t = some o ∧
      (∀ x ∈ o, x.1 = (p.1, evalLabel t.shift p.1)) ∧ o.length ≤ 1 ∧
      (∀ x ∈ o, 0 < p.2.nr ∧ (∃ q ∈ diag, q.1 = evalLabel t.shift p.1 ∧ 0 < q.2.nr) ∧
        triangle T.builtin.sym.fields p.1 (evalLabel t.shift p.1) t.iop = true) ∧
      (∀ q ∈ diag, q.1 = evalLabel t.shift p.1 → 0 < p.2.nr → 0 < q.2.nr →
        triangle T.builtin.sym.fields p.1 (evalLabel t.shift p.1) t.iop = true →
        ∃ M, o = [((p.1, q.1), M)] ∧ M.r = p.2.nr ∧ M.c = q.2.nr ∧ ∀ a < p.2.nr, ∀ c < q.2.nr, M.e a c =
          Ops.conjugate (V p) (Ops.assembled (d p) (d q) O (valTable 𝕜 T p.1 (t.rows.getD []))) (V q) a c) := by
  obtain ⟨rs, hrs, _⟩ := row_spec hT hW ht
  obtain ⟨vI, _, zI⟩ := hs.labels.valid _ (diag_mem hs hp)
  dsimp only at vI zI
  have hv := tables_rowsValid hT
  unfold recalcTargetV
  rw [hrs]
  dsimp only
  by_cases hst : haveStored (diag.map fun p => (p.1, p.2.nr)) p.1 (evalLabel t.shift p.1) = true
  · rw [if_pos hst]
    obtain ⟨s1, q, hq, eq, s2⟩ := (stored_spec hs hp _).1 hst
    by_cases htr : triangle T.builtin.sym.fields p.1 (evalLabel t.shift p.1) t.iop = true
    · have hfin := factors_finite hT hW hs.oldLabels vI zI (ho p hp) hO ht htr (sub := sub)
        (fun d' h => by rw [hb.sub p hp] at h; rw [← Option.some.inj h]; exact hb.dims p hp)
        (fun d' h => by rw [← eq] at h ⊢; rw [hb.sub q hq] at h; rw [← Option.some.inj h]; exact hb.dims q hq)
      rw [hrs, Option.getD_some] at hfin
      rw [if_neg (fun h => h.2 hfin)]
      have vp := shift_valid hT hW ht vI zI
      have hrow := row_facts hT hW vI zI ht
      rw [hrs, Option.getD_some] at hrow
      obtain ⟨l1, D1⟩ := dims_spec hv vI (hb.dims p hp)
      obtain ⟨l2, D2⟩ := dims_spec hv (by rw [← eq] at vp; exact vp) (hb.dims q hq)
      rw [← eq] at htr hrow ⊢
      obtain ⟨M, hM, Mr, Mc, Me⟩ := Ops.recalcGeneral_conjugates T.builtin.sym diag sub O p.1 q.1 t.iop (valTable 𝕜 T p.1 rs) htr
        p.2 q.2 (d p) (d q) (V p) (V q) (diag_lookup hs hp) (diag_lookup hs hq) (hb.sub p hp) (hb.sub q hq) l1 l2
        (hb.rows p hp) (hb.rows q hq)
        (by
          intro l hl
          obtain ⟨r, hr, rfl⟩ := List.mem_map.1 hl
          obtain ⟨r1, r2, r3, r4, r5, r6⟩ := hrow r hr
          exact ⟨⟨r1, r2⟩, ⟨r3, r4⟩, r5, r6⟩)
        (by
          intro l hl X hX h1 h2
          obtain ⟨r, hr, rfl⟩ := List.mem_map.1 hl
          obtain ⟨r1, r2, r3, r4, r5, r6⟩ := hrow r hr
          dsimp only at hX h1 h2 ⊢
          obtain ⟨A, ha, ea⟩ := D1 (r.i1 - 1) (by omega)
          obtain ⟨B, hB, eB⟩ := D2 (r.ip - 1) (by omega)
          rw [r5] at ha
          rw [r6] at hB
          rw [← Option.some.inj ha] at ea
          rw [← Option.some.inj hB] at eB
          rw [ea] at h1 ⊢
          rw [eB] at h2 ⊢
          have c1 : couplesTo T.builtin.sym p.1 (r.i1 - 1) (evalLabel ((T.labs[r.a]?).getD []) p.1) = true := by
            by_contra h; rw [if_neg h] at h1; exact h1 rfl
          have c2 : couplesTo T.builtin.sym q.1 (r.ip - 1) (evalLabel ((T.labs[r.b]?).getD []) p.1) = true := by
            by_contra h; rw [if_neg h] at h2; exact h2 rfl
          rw [if_pos c1] at h1 ⊢
          rw [if_pos c2] at h2 ⊢
          obtain ⟨f1, f2⟩ := hO.fits _ (mem_of_lookup' _ _ _ hX)
          exact ⟨(hs.oldLabels.valid _ (mem_of_size (Nat.pos_of_ne_zero fun h => h1 (by rw [h])))).2.1,
            (hs.oldLabels.valid _ (mem_of_size (Nat.pos_of_ne_zero fun h => h2 (by rw [h])))).2.1,
            by rw [f1], by rw [f2]⟩)
      rw [hM]
      refine ⟨[((p.1, q.1), M)], rfl, by simp, by simp, ?_, ?_⟩
      · intro x hx
        exact ⟨s1, ⟨q, hq, rfl, s2⟩, htr⟩
      · intro q' hq' e' _ _ _
        have := diag_unique hs hq' hq e'
        subst this
        exact ⟨M, rfl, Mr, Mc, fun a ha c hc => by rw [Me a ha c hc, Option.getD_some]⟩
    · rw [if_neg (fun h => htr h.1)]
      have hf : triangle T.builtin.sym.fields p.1 (evalLabel t.shift p.1) t.iop = false := by simpa using htr
      rw [Ops.recalcGeneral_uncoupled _ _ _ _ _ _ _ _ hf]
      exact ⟨[], rfl, by simp, by simp, by simp, fun _ _ _ _ _ h => absurd h htr⟩
  · rw [if_neg hst]
    refine ⟨[], rfl, by simp, by simp, by simp, fun q hq e h1 h2 _ => ?_⟩
    exact absurd ((stored_spec hs hp _).2 ⟨h1, q, hq, e, h2⟩) hst

include hT hW hs hb ho in
/-- The carried operator. -/
theorem operator_value {O : Ops.Elements 𝕜} (hO : OperatorOn T old O) :
    ∃ O', recalcOp T diag sub O = some O' ∧ (O'.map Prod.fst).Nodup ∧
      (∀ x ∈ O', ∃ p ∈ diag, ∃ t ∈ T.targets, x.1 = (p.1, evalLabel t.shift p.1) ∧ 0 < p.2.nr ∧
        (∃ q ∈ diag, q.1 = evalLabel t.shift p.1 ∧ 0 < q.2.nr) ∧
        triangle T.builtin.sym.fields p.1 (evalLabel t.shift p.1) t.iop = true) ∧
      (∀ p ∈ diag, ∀ t ∈ T.targets, ∀ q ∈ diag, q.1 = evalLabel t.shift p.1 → 0 < p.2.nr → 0 < q.2.nr →
        triangle T.builtin.sym.fields p.1 (evalLabel t.shift p.1) t.iop = true →
        ∃ M, O'.lookup (p.1, q.1) = some M ∧ M.r = p.2.nr ∧ M.c = q.2.nr ∧ ∀ a < p.2.nr, ∀ c < q.2.nr, M.e a c =
          Ops.conjugate (V p) (Ops.assembled (d p) (d q) O (valTable 𝕜 T p.1 (t.rows.getD []))) (V q) a c) := by
  have hval : ∀ p : Label × Eig 𝕜, p ∈ diag → ∀ t ∈ T.targets, _ :=
    fun p hp t ht => target_value hT hW hs hb ho hO hp ht
  let out : Label × Eig 𝕜 → OpTarget → Ops.Elements 𝕜 := fun p t => (recalcTargetV T diag sub O p.1 t).getD []
  have hout : ∀ p ∈ diag, ∀ t ∈ T.targets, recalcTargetV T diag sub O p.1 t = some (out p t) := by
    intro p hp t ht
    obtain ⟨o, e, _⟩ := hval p hp t ht
    simp [out, e]
  have hv : ∀ p ∈ diag, ∀ t ∈ T.targets, (∀ x ∈ out p t, x.1 = (p.1, evalLabel t.shift p.1)) ∧ (out p t).length ≤ 1 ∧
      (∀ x ∈ out p t, 0 < p.2.nr ∧ (∃ q ∈ diag, q.1 = evalLabel t.shift p.1 ∧ 0 < q.2.nr) ∧
        triangle T.builtin.sym.fields p.1 (evalLabel t.shift p.1) t.iop = true) ∧
      (∀ q ∈ diag, q.1 = evalLabel t.shift p.1 → 0 < p.2.nr → 0 < q.2.nr →
        triangle T.builtin.sym.fields p.1 (evalLabel t.shift p.1) t.iop = true →
        ∃ M, out p t = [((p.1, q.1), M)] ∧ M.r = p.2.nr ∧ M.c = q.2.nr ∧ ∀ a < p.2.nr, ∀ c < q.2.nr, M.e a c =
          Ops.conjugate (V p) (Ops.assembled (d p) (d q) O (valTable 𝕜 T p.1 (t.rows.getD []))) (V q) a c) := by
    intro p hp t ht
    obtain ⟨o, e, h⟩ := hval p hp t ht
    have := hout p hp t ht
    rw [e] at this
    rw [← Option.some.inj this]
    exact h
  clear_value out
  have hnd : ((diag.flatMap fun p => T.targets.flatMap (out p)).map Prod.fst).Nodup := by
    rw [List.Nodup, List.pairwise_map, List.pairwise_flatMap]
    constructor
    · intro p hp
      rw [List.pairwise_flatMap]
      constructor
      · intro t ht
        have := (hv p hp t ht).2.1
        match out p t, this with
        | [], _ => exact List.Pairwise.nil
        | [x], _ => exact List.pairwise_singleton _ _
        | _ :: _ :: _, h => simp at h
      · have ha := tables_apartOk T hT hW
        simp only [apartOk, decide_eq_true_eq] at ha
        refine List.Pairwise.imp_of_mem ?_ ha
        intro s t hs' ht hst m hm m' hm' he
        have e1 := (hv p hp s hs').1 m hm
        have e2 := (hv p hp t ht).1 m' hm'
        rw [e1, e2] at he
        exact apart_eval hst (hs.labels.valid _ (diag_mem hs hp)).1 (Prod.mk.inj he).2
    · have hn := diag_nodup hs
      rw [List.Nodup, List.pairwise_map] at hn
      refine List.Pairwise.imp_of_mem ?_ hn
      intro p q hp hq hpq m hm m' hm' he
      obtain ⟨t, ht, hm⟩ := List.mem_flatMap.1 hm
      obtain ⟨t', ht', hm'⟩ := List.mem_flatMap.1 hm'
      rw [(hv p hp t ht).1 m hm, (hv q hq t' ht').1 m' hm'] at he
      exact hpq (Prod.mk.inj he).1
  refine ⟨diag.flatMap fun p => T.targets.flatMap (out p), ?_, hnd, ?_, ?_⟩
  · unfold recalcOp
    rw [Symm.mapM_some diag _ (fun p => T.targets.flatMap (out p)) (by
      intro p hp
      rw [Symm.mapM_some T.targets _ (out p) (hout p hp)]
      simp [List.flatMap_def])]
    simp [List.flatMap_def]
  · intro x hx
    obtain ⟨p, hp, hx⟩ := List.mem_flatMap.1 hx
    obtain ⟨t, ht, hx⟩ := List.mem_flatMap.1 hx
    obtain ⟨h1, h2, h3⟩ := (hv p hp t ht).2.2.1 x hx
    exact ⟨p, hp, t, ht, (hv p hp t ht).1 x hx, h1, h2, h3⟩
  · intro p hp t ht q hq e h1 h2 h3
    obtain ⟨M, hM, he⟩ := (hv p hp t ht).2.2.2 q hq e h1 h2 h3
    refine ⟨M, ?_, he⟩
    refine lookup_of_mem' _ hnd ((p.1, q.1), M) ?_
    exact List.mem_flatMap.2 ⟨p, hp, List.mem_flatMap.2 ⟨t, ht, by rw [hM]; exact List.mem_singleton.2 rfl⟩⟩

end

end Verif.Coef
