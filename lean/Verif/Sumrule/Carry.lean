import Verif.Sumrule.Telescope
import Verif.Coef.Props
/-!
# Products of operators along the chain
-/

namespace Verif.Sumrule
open Verif.Invar Verif.Symm Verif.Mat Verif.Dm Verif.Oper Finset
variable {𝕜 : Type} [RCLike 𝕜]

theorem works_notLR : ∀ T ∈ opTables, T.Works → T.builtin.symtype ≠ "SPSU2LR" := by decide +kernel

theorem table_builtin {T : OpTable} (hT : T ∈ opTables) : T.builtin ∈ builtins := by
  have h : T.builtin ∈ opTables.map OpTable.builtin := List.mem_map_of_mem hT
  rw [tables_builtins, List.mem_filterMap] at h
  obtain ⟨i, _, hi⟩ := h
  exact List.mem_of_getElem? hi

theorem trim_optEntry {sizes : Sizes} {O O' : Ops.Elements 𝕜} (h : trimElements sizes O = some O') (k : Label × Label) (a b : ℕ) :
    Ops.optEntry (O'.lookup k) a b = Ops.optEntry (O.lookup k) a b := by
  rw [trim_lookup h]
  cases hM : O.lookup k with
  | none => rfl
  | some M =>
    have hm := mem_of_lookup2 _ _ _ hM
    have : ∃ C, trim M (sizeSubspace sizes k.1) (sizeSubspace sizes k.2) = some C := by
      by_contra hno
      push Not at hno
      have hn : trim M (sizeSubspace sizes k.1) (sizeSubspace sizes k.2) = none := by
        cases ht : trim M (sizeSubspace sizes k.1) (sizeSubspace sizes k.2) with
        | none => rfl
        | some C => exact absurd ht (hno C)
      unfold trimElements at h
      rw [Oper.mapM_none_of_mem (x := (k, M)) hm (by simp [hn])] at h
      cases h
    obtain ⟨C, hC⟩ := this
    simp only [Option.bind_some]
    rw [hC]
    exact trim_entries hC a b

theorem trim_keys {sizes : Sizes} {O O' : Ops.Elements 𝕜} (h : trimElements sizes O = some O') : ∀ e' ∈ O', ∃ e ∈ O, e.1 = e'.1 ∧
    trim e.2 (sizeSubspace sizes e.1.1) (sizeSubspace sizes e.1.2) = some e'.2 := by
  intro e' he'
  obtain ⟨i, hi⟩ := List.mem_iff_getElem?.1 he'
  have hm := (Ops.mapM_getElem? _ _ _ h).2 i
  rw [hi] at hm
  cases hO : O[i]? with
  | none => rw [hO] at hm; simp at hm
  | some e =>
    rw [hO] at hm
    simp only [Option.bind_some] at hm
    obtain ⟨M, hM, hx⟩ := Option.bind_eq_some_iff.1 hm.symm
    cases hx
    exact ⟨e, List.mem_of_getElem? hO, rfl, hM⟩

/-- Trimming an operator. -/
theorem trim_on {T : OpTable} {diag : DiagU 𝕜} {prev : BackShell} (hpos : ∀ p ∈ diag, 0 < p.2.nr) (hn : (diag.map Prod.fst).Nodup)
    {O O' : Ops.Elements 𝕜} (hO : OperatorAll T diag O) (h : trimElements (keptSizes prev) O = some O') :
    Coef.OperatorOn T (keptSizes prev) O' := by
  refine ⟨fun e' he' => ?_, fun e' he' => ?_⟩
  · obtain ⟨e, he, e1, ht⟩ := trim_keys h e' he'
    obtain ⟨f1, f2⟩ := hO.on.fits e he
    obtain ⟨l1, l2⟩ := hO.labels e he
    have hsz : ∀ I, I ∈ diag.map Prod.fst → 0 < sizeSubspace (Coef.stateCounts diag) I := by
      intro I hI
      obtain ⟨p, hp, rfl⟩ := List.mem_map.1 hI
      have : (p.1, p.2.nr) ∈ Coef.stateCounts diag := List.mem_map.2 ⟨p, hp, rfl⟩
      rw [Coef.size_of_mem (p := (p.1, p.2.nr)) (by simpa [Coef.stateCounts, Function.comp_def] using hn) this]
      exact hpos p hp
    have g1 := hsz _ l1
    have g2 := hsz _ l2
    rw [← e1]
    exact trim_size ht (by omega) (by omega)
  · obtain ⟨e, he, e1, _⟩ := trim_keys h e' he'
    rw [← e1]
    exact hO.on.carried e he

theorem prodEntry_trim {sizes sizes' : Sizes} {A A' B B' : Ops.Elements 𝕜} (hA : trimElements sizes A = some A') (hB : trimElements sizes B = some B') :
    Coef.prodEntry sizes' A' B' = Coef.prodEntry sizes' A B := by
  funext I a b
  unfold Coef.prodEntry
  simp only [trim_optEntry hA, trim_optEntry hB]

/-- One step: operators of the right kind are carried to operators of the right kind, and their product
is carried as a scalar. -/
theorem step_carried {T : OpTable} (hT : T ∈ opTables) (hW : T.Works) (hu : T.id ∉ Coef.unevaluated)
    {cur prev : Shell 𝕜} (hL : Linked T.builtin.sym prev.store cur) {sub : List (Label × List Nat)}
    (hk : Coef.KeepsAll T (keptSizes prev.store) cur.diag sub) (hreg : ∀ p ∈ cur.diag, Coef.Regular T p.1)
    (hpos : ∀ p ∈ prev.diag, 0 < p.2.nr) (hn : (prev.diag.map Prod.fst).Nodup)
    {A B A1 B1 : Ops.Elements 𝕜} (hA : OperatorAll T prev.diag A) (hB : OperatorAll T prev.diag B)
    (cA : CarriedBy T prev.store cur.diag sub A A1) (cB : CarriedBy T prev.store cur.diag sub B B1) :
    OperatorAll T cur.diag A1 ∧ OperatorAll T cur.diag B1 ∧ (∀ p ∈ cur.diag, 0 < p.2.nr) ∧
      Carried T.builtin.sym cur.diag (Coef.prodEntry (keptSizes prev.store) B A) (Coef.prodEntry (Coef.stateCounts cur.diag) B1 A1) := by
  obtain ⟨A', tA, rA⟩ := cA
  obtain ⟨B', tB, rB⟩ := cB
  have oA := trim_on hpos hn hA tA
  have oB := trim_on hpos hn hB tB
  have hs := Coef.nothingLost hT hk
  have ho : ∀ p ∈ cur.diag, Coef.Orthonormal T (T.factor p.1) p.1 := by
    intro p hp
    obtain ⟨v, _, z⟩ := hs.labels.valid _ (Coef.diag_mem hs hp)
    exact Coef.tables_orthonormal T hT hW hu p.1 v z (hreg p hp)
  obtain ⟨d, V, hb⟩ := Coef.exists_bases hs
  have hall : ∀ {O O1 : Ops.Elements 𝕜}, Coef.OperatorOn T (keptSizes prev.store) O → Coef.recalcOp T cur.diag sub O = some O1 → OperatorAll T cur.diag O1 := by
    intro O O1 hO hO1
    obtain ⟨O2, e, nd, key, val⟩ := Coef.operator_value hT hW hs hb ho hO
    rw [hO1] at e
    cases e
    have hsz : ∀ p ∈ cur.diag, sizeSubspace (Coef.stateCounts cur.diag) p.1 = p.2.nr := fun p hp => by
      have : (p.1, p.2.nr) ∈ Coef.stateCounts cur.diag := List.mem_map.2 ⟨p, hp, rfl⟩
      exact Coef.size_of_mem (p := (p.1, p.2.nr)) hs.labels.nodup this
    refine ⟨⟨fun x hx => ?_, fun x hx => ?_⟩, nd, fun x hx => ?_⟩
    · obtain ⟨p, hp, t, ht, e1, h0, ⟨q, hq, e2, h0'⟩, htr⟩ := key x hx
      obtain ⟨M, hM, hr, hc, _⟩ := val p hp t ht q hq e2 h0 h0' htr
      rw [e2, ← e1, Coef.lookup_of_mem' _ nd x hx] at hM
      have hM' : x.2 = M := Option.some.inj hM
      rw [hM', e1]
      dsimp only
      rw [← e2, hsz p hp, hsz q hq]
      exact ⟨hr, hc⟩
    · obtain ⟨p, hp, t, ht, e1, h0, ⟨q, hq, e2, h0'⟩, htr⟩ := key x hx
      obtain ⟨v, _, z⟩ := hs.labels.valid _ (Coef.diag_mem hs hp)
      obtain ⟨v', _, _⟩ := hs.labels.valid _ (Coef.diag_mem hs hq)
      rw [e1]
      exact (targets_spec hT hW v z (by rw [← e2]; exact v')).1 ⟨t, ht, rfl, htr⟩
    · obtain ⟨p, hp, t, ht, e1, h0, ⟨q, hq, e2, h0'⟩, htr⟩ := key x hx
      rw [e1]
      exact ⟨List.mem_map_of_mem hp, by dsimp only; rw [← e2]; exact List.mem_map_of_mem hq⟩
  refine ⟨hall oA rA, hall oB rB, ?_, ?_⟩
  · intro p hp
    have : (p.1, p.2.nr) ∈ Coef.stateCounts cur.diag := List.mem_map.2 ⟨p, hp, rfl⟩
    have hfull := hk.all
    unfold fullStep at hfull
    simp only [Option.bind_eq_bind, Option.pure_def] at hfull
    obtain ⟨st, _, hst⟩ := Option.bind_eq_some_iff.1 hfull
    rw [← Option.some.inj hst] at this
    obtain ⟨e, he, hpe⟩ := List.mem_map.1 this
    have h2 := (List.mem_filter.1 he).2
    obtain ⟨_, g2⟩ := Prod.mk.inj hpe
    rw [← g2]
    simp only [bne_iff_ne, ne_eq] at h2
    omega
  · -- the product as an operator of its own
    set old := keptSizes prev.store with hold
    have hon : (old.map Prod.fst).Nodup := hk.oldNodup
    let P : Ops.Elements 𝕜 := old.map fun q => ((q.1, q.1), ⟨q.2, q.2, Coef.prodEntry old B' A' q.1⟩)
    have hPl : ∀ q ∈ old, P.lookup (q.1, q.1) = some ⟨q.2, q.2, Coef.prodEntry old B' A' q.1⟩ := by
      have aux : ∀ (l : Sizes), (l.map Prod.fst).Nodup → ∀ q ∈ l,
          ((l.map fun q => ((q.1, q.1), (⟨q.2, q.2, Coef.prodEntry old B' A' q.1⟩ : Mat 𝕜))) : Ops.Elements 𝕜).lookup (q.1, q.1)
            = some ⟨q.2, q.2, Coef.prodEntry old B' A' q.1⟩ := by
        intro l hl q hq
        induction l with
        | nil => simp at hq
        | cons x l ih =>
          simp only [List.map_cons, List.nodup_cons] at hl
          rcases List.mem_cons.1 hq with rfl | hq
          · simp [List.lookup]
          · have hx : ((q.1, q.1) == (x.1, x.1)) = false := by
              have : q.1 ≠ x.1 := fun h => hl.1 (by rw [← h]; exact List.mem_map_of_mem hq)
              simp [this]
            simp only [List.map_cons, List.lookup, hx]
            exact ih hl.2 hq
      exact aux old hon
    have hPk : ∀ A M, P.lookup (A, A) = some M → ∃ q ∈ old, q.1 = A ∧ M = ⟨q.2, q.2, Coef.prodEntry old B' A' q.1⟩ := by
      intro A M hM
      obtain ⟨q, hq, e⟩ := List.mem_map.1 (mem_of_lookup2 _ _ _ hM)
      obtain ⟨e1, e2⟩ := Prod.mk.inj e
      exact ⟨q, hq, (Prod.mk.inj e1).1, e2.symm⟩
    have hsz : ∀ q ∈ old, sizeSubspace old q.1 = q.2 := fun q hq => Coef.size_of_mem hon hq
    have hP : Coef.IsProduct old B' A' P := fun q hq => ⟨_, hPl q hq, rfl, rfl, fun _ _ _ _ => rfl⟩
    have hPs : SingletOn old P := by
      intro A M hM
      obtain ⟨q, hq, rfl, rfl⟩ := hPk A M hM
      exact ⟨(hsz q hq).symm, (hsz q hq).symm⟩
    obtain ⟨B2, A2, eB, eA, hprod⟩ := Coef.product_carried_partial T hT hW hu old cur.diag sub hk hreg B' A' P oB oA hP
    rw [rB] at eB
    rw [rA] at eA
    cases eB
    cases eA
    intro q hq k hk' l hl
    obtain ⟨M, hM, _, _, he⟩ := hprod q hq
    have hB0 := table_builtin hT
    have hv := builtins_rowsValid _ hB0
    have hgood : ∀ f ∈ T.builtin.sym.fields, goodField f = true := by
      obtain ⟨ms, hdec⟩ := builtins_decompose _ hB0
      simp only [decomposes, Bool.and_eq_true, List.all_eq_true] at hdec
      exact hdec.1.1
    obtain ⟨s, hs', hok⟩ := hL.eigs q hq
    have hqs : q.1 ∈ sub.map Prod.fst := by
      have h1 := hb.sub q hq
      exact List.mem_map.2 ⟨_, Dm.mem_of_lookup _ _ _ h1, rfl⟩
    obtain ⟨dd, hd1, hd2⟩ := substruct_lookup hk.structured hqs
    have hdims := hok.dims
    rw [← hold, hd2] at hdims
    have hdd : dd = s.rmax := Option.some.inj hdims
    have htri := Oper.singletOk_sound (Oper.builtins_singletOk _ hB0 (works_notLR T hT hW)) (physical_valid (hs.spins q hq)) (by
      have := hs.spins q hq
      unfold Symm.Physical at this
      unfold Oper.Physical
      refine List.Forall₂.imp ?_ this
      intro f x h
      exact ⟨fun h' => h.2.1 h', h.2.2⟩)
    obtain ⟨M', hM', _, _, he'⟩ := singlet_carried hv hL (fun p hp => Coef.physical_allowed hgood
      (hk.oldLabels (p.1, p.2.kept) (List.mem_map.2 ⟨p, hp, rfl⟩)).1) hPs hq htri ⟨s, hs', by rw [hd1, hdd]⟩
    rw [hM] at hM'
    cases hM'
    rw [← prodEntry_trim tB tA, ← he k hk' l hl, he' k hk' l hl]
    unfold carried
    refine sum_congr rfl fun i hi => ?_
    have hi' := mem_range.1 hi
    have e := eig_rmax hok i hi'
    rcases rmax_cases hv (hL.curLabels q hq).1 hok.dims i _ (table_getD T.builtin.sym i hi') with h0 | ⟨t, ht, hkt⟩
    · rw [e.2.2.2] at h0
      rw [h0]; simp
    · refine sum_congr rfl fun a _ => sum_congr rfl fun b _ => ?_
      have hm : (anc T.builtin.sym q.1 (T.builtin.sym.table.getD i ([], [])), t.kept) ∈ old := List.mem_map.2 ⟨_, Dm.mem_of_lookup _ _ _ ht, rfl⟩
      unfold diagonalOf
      rw [hPl _ hm]
      rfl

end Verif.Sumrule
