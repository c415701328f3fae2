import Verif.Coef.Singlet
/-!
# Products of operators: the sum over all targets
-/

namespace Verif.Coef
open Verif.Invar Verif.Symm Verif.Oper Verif.Dm Verif.Mat Finset

variable {𝕜 : Type} [RCLike 𝕜]

section
variable {T : OpTable} (hT : T ∈ opTables) (hW : T.Works) {old : Sizes} {diag : DiagU 𝕜} {sub : List (Label × List Nat)}
  (hs : NothingLost T old diag sub) {d : Label × Eig 𝕜 → List Nat} {V : Label × Eig 𝕜 → Mat 𝕜}
  (hb : Bases T old diag sub d V) (ho : ∀ p ∈ diag, Orthonormal T (T.factor p.1) p.1)

include hT hW hs hb ho in
/-- In the product basis, the sum over all targets is the old product. -/
theorem targets_sum {A B : Ops.Elements 𝕜} (hA : OperatorOn T old A) (hB : OperatorOn T old B) {p : Label × Eig 𝕜}
    (hp : p ∈ diag) {x x' : ℕ} (hx : x < (d p).sum) (hx' : x' < (d p).sum) :
    (T.targets.map fun t => (diag.map fun q =>
      if q.1 = evalLabel t.shift p.1 ∧ 0 < q.2.nr ∧ triangle T.builtin.sym.fields p.1 (evalLabel t.shift p.1) t.iop = true then
        ∑ y ∈ range (V q).c, Ops.assembled (d p) (d q) A (valTable 𝕜 T p.1 (t.rows.getD [])) x y *
          star (Ops.assembled (d p) (d q) B (valTable 𝕜 T p.1 (t.rows.getD [])) x' y)
      else 0).sum).sum = productBasis T.builtin.sym old A B p.1 (d p) x x' := by
  obtain ⟨vI, _, zI⟩ := hs.labels.valid _ (diag_mem hs hp)
  dsimp only at vI zI
  have hv := tables_rowsValid hT
  obtain ⟨hl, hd⟩ := dims_spec hv vI (hb.dims p hp)
  obtain ⟨i1, k, n1, hi1, h1, hk, rfl⟩ := inBlock_split hx
  obtain ⟨i2, k', n2, hi2, h2, hk', rfl⟩ := inBlock_split hx'
  obtain ⟨A1, a1, e1⟩ := hd i1 (by omega)
  obtain ⟨A2, a2, e2⟩ := hd i2 (by omega)
  rw [productBasis_at _ _ _ _ _ _ hl h1 h2 hk hk' a1]
  have c1 : couplesTo T.builtin.sym p.1 i1 A1 = true := by
    by_contra h; rw [if_neg h, h1] at e1; cases e1; omega
  have c2 : couplesTo T.builtin.sym p.1 i2 A2 = true := by
    by_contra h; rw [if_neg h, h2] at e2; cases e2; omega
  have s1 : 0 < sizeSubspace old A1 := by rw [if_pos c1, h1] at e1; cases e1; omega
  have s2 : 0 < sizeSubspace old A2 := by rw [if_pos c2, h2] at e2; cases e2; omega
  rw [← product_orthonormal hT hW hs.oldLabels (ho p hp) hA hB (k := k) (k' := k') c1 c2 s1 s2]
  have e3 : ∀ r ∈ old, ((pairSum T (T.factor p.1) p.1 (i1 + 1) (i2 + 1) r.1 : ℝ) : 𝕜) * pairEntry A B A1 A2 k k' r =
      (T.targets.map fun t => if triangle T.builtin.sym.fields p.1 (evalLabel t.shift p.1) t.iop = true then
        ((targetSum T.builtin.sym (T.factor p.1) (t.rows.getD []) (evalLabel t.shift p.1) (i1 + 1) (i2 + 1) r.1 : ℝ) : 𝕜) *
          pairEntry A B A1 A2 k k' r else 0).sum := by
    intro r _
    rw [pairSum_eq]
    generalize T.targets = l
    induction l with
    | nil => simp
    | cons t l ih =>
      simp only [List.map_cons, List.sum_cons, RCLike.ofReal_add, add_mul, ih]
      congr 1
      split <;> simp
  rw [List.map_congr_left e3]
  refine Eq.trans ?_ (Dm.sum_swap _ _ _)
  congr 1
  refine List.map_congr_left fun t ht => ?_
  have vp := shift_valid hT hW ht vI zI
  by_cases htr : triangle T.builtin.sym.fields p.1 (evalLabel t.shift p.1) t.iop = true
  · simp only [htr, and_true, if_true]
    by_cases hq : ∃ q ∈ diag, q.1 = evalLabel t.shift p.1 ∧ 0 < q.2.nr
    · obtain ⟨q, hq, eq, hq0⟩ := hq
      have hn := diag_nodup hs
      rw [List.Nodup, List.pairwise_map] at hn
      rw [sum_single diag (fun a b => a.1 ≠ b.1) hn (fun q => q.1 = evalLabel t.shift p.1 ∧ 0 < q.2.nr)
        (fun a b h h' => h (by rw [h'.1.1, h'.2.1])) _ q hq ⟨eq, hq0⟩]
      rw [(hb.rows q hq).cols]
      rw [← eq] at vp ⊢
      refine product_blocks hs.oldLabels.nodup hv A B vp _ ?_ (hb.dims q hq) h1 h2 hk hk' a1 a2
      intro r hr
      obtain ⟨r1, _, r3, r4, r5, r6⟩ := row_facts hT hW vI zI ht r hr
      rw [← eq] at r6
      exact ⟨r1, r3, r4, r5, r6⟩
    · rw [List.sum_eq_zero, List.sum_eq_zero]
      · intro z hz
        obtain ⟨r, hr, rfl⟩ := List.mem_map.1 hz
        by_cases hr0 : r.2 = 0
        · simp [pairEntry, hr0]
        · rw [show targetSum T.builtin.sym (T.factor p.1) (t.rows.getD []) (evalLabel t.shift p.1) (i1 + 1) (i2 + 1) r.1 = 0 from ?_]
          · simp
          · refine List.sum_eq_zero fun z hz => ?_
            obtain ⟨s, hs', rfl⟩ := List.mem_map.1 hz
            refine if_neg fun hc => hq ?_
            have hsz : sizeSubspace old r.1 = r.2 := size_of_mem hs.oldLabels.nodup hr
            have := hs.complete _ vp _ _ hc.2 (by omega)
            obtain ⟨q, hq, eq⟩ := List.mem_map.1 this
            refine ⟨q, hq, eq, ?_⟩
            obtain ⟨hl', hd'⟩ := dims_spec hv (by rw [← eq] at vp; exact vp) (hb.dims q hq)
            rw [← eq] at hc
            have hcomb := Ops.ancestor_range (couplesTo_ancestor hc.2)
            obtain ⟨C, g1, g2⟩ := hd' _ hcomb
            rw [couplesTo_ancestor hc.2] at g1
            rw [← Option.some.inj g1, if_pos hc.2, hsz] at g2
            rw [hb.all q hq]
            exact lt_of_lt_of_le (Nat.pos_of_ne_zero hr0) (List.single_le_sum (by simp) _ (List.mem_of_getElem? g2))
      · intro z hz
        obtain ⟨q, hq', rfl⟩ := List.mem_map.1 hz
        exact if_neg fun h => hq ⟨q, hq', h⟩
  · rw [List.sum_eq_zero, List.sum_eq_zero]
    · intro z hz
      obtain ⟨r, _, rfl⟩ := List.mem_map.1 hz
      exact if_neg htr
    · intro z hz
      obtain ⟨q, _, rfl⟩ := List.mem_map.1 hz
      exact if_neg fun h => htr h.2.2

end

end Verif.Coef
