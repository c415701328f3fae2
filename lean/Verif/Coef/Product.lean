import Verif.Coef.ProductLemmas
/-!
# Products of operators: the steps of the proof
-/

namespace Verif.Coef
open Verif.Invar Verif.Symm Verif.Oper Verif.Dm Verif.Mat Finset

variable {𝕜 : Type} [RCLike 𝕜]

theorem mem_of_size {sizes : Sizes} {I : Label} (h : 0 < sizeSubspace sizes I) : (I, sizeSubspace sizes I) ∈ sizes := by
  unfold sizeSubspace at h ⊢
  cases hl : sizes.lookup I with
  | none => rw [hl] at h; simp at h
  | some n => exact Dm.mem_of_lookup _ _ _ hl

theorem size_of_mem {sizes : Sizes} (hn : (sizes.map Prod.fst).Nodup) {p : Label × Nat} (hp : p ∈ sizes) :
    sizeSubspace sizes p.1 = p.2 := by
  unfold sizeSubspace
  rw [Dm.lookup_of_mem _ hn p hp]; rfl

section
variable {T : OpTable} (hT : T ∈ opTables) (hW : T.Works) {old : Sizes} (hold : LabelsOK T old)
  {I1 : Label} (hI : Valid (types T.builtin.sym.fields) I1) (hz : T.builtin.symtype = "NONE" → I1 = [0])
  (ho : Orthonormal T (T.factor I1) I1)

include hT hW hold in
/-- An old block of an operator is between labels that are connected. -/
theorem reaches_of_block {O : Ops.Elements 𝕜} (hO : OperatorOn T old O) {i : Nat} {A B : Label}
    (hc : couplesTo T.builtin.sym I1 i A = true) (hA : 0 < sizeSubspace old A) (hB : 0 < sizeSubspace old B)
    (hs : (O.lookup (A, B)).isSome) : Reaches T I1 (i + 1) B := by
  obtain ⟨M, hM⟩ := Option.isSome_iff_exists.1 hs
  have hm := mem_of_lookup' _ _ _ hM
  have hA' := hold.valid _ (mem_of_size hA)
  have hB' := hold.valid _ (mem_of_size hB)
  obtain ⟨t, ht, he, htr⟩ := (targets_spec hT hW hA'.1 hA'.2.2 hB'.1).2 (hO.carried _ hm)
  exact ⟨A, by omega, by simpa using hc, hA'.1, hA'.2.2, t, ht, he, htr⟩

include hT hW hI hz in
theorem row_facts {t : OpTarget} (ht : t ∈ T.targets) : ∀ r ∈ t.rows.getD [],
    1 ≤ r.i1 ∧ r.i1 ≤ T.builtin.sym.combs ∧ 1 ≤ r.ip ∧ r.ip ≤ T.builtin.sym.combs ∧
      T.builtin.sym.ancestor I1 (r.i1 - 1) = some (evalLabel ((T.labs[r.a]?).getD []) I1) ∧
      T.builtin.sym.ancestor (evalLabel t.shift I1) (r.ip - 1) = some (evalLabel ((T.labs[r.b]?).getD []) I1) := by
  intro r hr
  cases hrs : t.rows with
  | none => rw [hrs] at hr; simp at hr
  | some rs =>
    rw [hrs] at hr
    obtain ⟨h1, h2, h3, h4, _, h5⟩ := rows_name_ancestors T hT hW t ht rs hrs r hr
    have := h5 I1 hI hz (shift_valid hT hW ht hI hz)
    exact ⟨h1, h2, h3, h4, this.1, this.2⟩

include hT hW hold hI hz ho in
/-- The factors that are used are finite. -/
theorem factors_finite {O : Ops.Elements 𝕜} (hO : OperatorOn T old O) {t : OpTarget} (ht : t ∈ T.targets)
    (htr : triangle T.builtin.sym.fields I1 (evalLabel t.shift I1) t.iop = true) {sub : List (Label × List Nat)}
    (h1 : ∀ d, sub.lookup I1 = some d → subspaceDims T.builtin.sym old I1 = some d)
    (hp : ∀ d, sub.lookup (evalLabel t.shift I1) = some d → subspaceDims T.builtin.sym old (evalLabel t.shift I1) = some d) :
    FactorsFinite T sub O I1 (evalLabel t.shift I1) (t.rows.getD []) := by
  intro d1 dp hd1 hdp r hr hu
  obtain ⟨r1, r2, r3, r4, r5, r6⟩ := row_facts hT hW hI hz ht r hr
  obtain ⟨_, _, u1, u2, u3⟩ := hu
  dsimp only at u1 u2 u3
  have hv := tables_rowsValid hT
  obtain ⟨_, hd⟩ := dims_spec hv hI (h1 d1 hd1)
  obtain ⟨_, hd'⟩ := dims_spec hv (shift_valid hT hW ht hI hz) (hp dp hdp)
  obtain ⟨A, ha, ea⟩ := hd (r.i1 - 1) (by omega)
  obtain ⟨B, hb, eb⟩ := hd' (r.ip - 1) (by omega)
  rw [r5] at ha
  rw [r6] at hb
  rw [← Option.some.inj ha] at ea
  rw [← Option.some.inj hb] at eb
  rw [ea] at u1
  rw [eb] at u2
  have c1 : couplesTo T.builtin.sym I1 (r.i1 - 1) (evalLabel ((T.labs[r.a]?).getD []) I1) = true := by
    by_contra h; rw [if_neg h] at u1; exact u1 rfl
  have c2 : couplesTo T.builtin.sym (evalLabel t.shift I1) (r.ip - 1) (evalLabel ((T.labs[r.b]?).getD []) I1) = true := by
    by_contra h; rw [if_neg h] at u2; exact u2 rfl
  rw [if_pos c1] at u1
  rw [if_pos c2] at u2
  have hre := reaches_of_block hT hW hold hO c1 (Nat.pos_of_ne_zero fun h => u1 (by rw [h]))
    (Nat.pos_of_ne_zero fun h => u2 (by rw [h])) u3
  have e : r.i1 - 1 + 1 = r.i1 := by omega
  rw [e] at hre
  exact (ho r.i1 r.i1 _ hre hre).2 t ht htr r hr rfl c2

include hT hW hold ho in
/-- The sum over all targets, with orthonormal factors. -/
theorem product_orthonormal {A B : Ops.Elements 𝕜} (hA : OperatorOn T old A) (hB : OperatorOn T old B)
    {i1 i2 k k' : Nat} {A1 A2 : Label} (h1 : couplesTo T.builtin.sym I1 i1 A1 = true) (h2 : couplesTo T.builtin.sym I1 i2 A2 = true)
    (s1 : 0 < sizeSubspace old A1) (s2 : 0 < sizeSubspace old A2) :
    (old.map fun q => ((pairSum T (T.factor I1) I1 (i1 + 1) (i2 + 1) q.1 : ℝ) : 𝕜) * pairEntry A B A1 A2 k k' q).sum =
      if i1 = i2 then prodEntry old A B A1 k k' else 0 := by
  have e : ∀ q ∈ old, ((pairSum T (T.factor I1) I1 (i1 + 1) (i2 + 1) q.1 : ℝ) : 𝕜) * pairEntry A B A1 A2 k k' q =
      if i1 = i2 then pairEntry A B A1 A2 k k' q else 0 := by
    intro q hq
    by_cases hs : 0 < q.2 ∧ (A.lookup (A1, q.1)).isSome ∧ (B.lookup (A2, q.1)).isSome
    · have sq : 0 < sizeSubspace old q.1 := by rw [size_of_mem hold.nodup hq]; exact hs.1
      have := (ho _ _ _ (reaches_of_block hT hW hold hA h1 s1 sq hs.2.1) (reaches_of_block hT hW hold hB h2 s2 sq hs.2.2)).1
      rw [this]
      by_cases hi : i1 = i2
      · rw [if_pos hi, if_pos (by omega)]; simp
      · rw [if_neg hi, if_neg (by omega)]; simp
    · have : pairEntry A B A1 A2 k k' q = 0 := by
        unfold pairEntry
        by_cases h0 : 0 < q.2
        · refine Finset.sum_eq_zero fun l _ => ?_
          by_cases ha : (A.lookup (A1, q.1)).isSome
          · have hb : ¬ (B.lookup (A2, q.1)).isSome := fun h => hs ⟨h0, ha, h⟩
            rw [Option.not_isSome_iff_eq_none] at hb
            rw [hb]; simp [Ops.optEntry]
          · rw [Option.not_isSome_iff_eq_none] at ha
            rw [ha]; simp [Ops.optEntry]
        · have : q.2 = 0 := by omega
          rw [this]; simp
      rw [this]; simp
  rw [List.map_congr_left e]
  by_cases hi : i1 = i2
  · subst hi
    have : A1 = A2 := by
      have a1 := couplesTo_ancestor h1
      rw [couplesTo_ancestor h2] at a1
      exact (Option.some.inj a1).symm
    subst this
    simp only [if_true]
    rfl
  · simp [hi]

theorem pairSum_eq (F : Nat → FVal) (i1 i2 : Nat) (B : Label) : pairSum T F I1 i1 i2 B =
    (T.targets.map fun t => if triangle T.builtin.sym.fields I1 (evalLabel t.shift I1) t.iop then
      targetSum T.builtin.sym F (t.rows.getD []) (evalLabel t.shift I1) i1 i2 B else 0).sum := rfl

end

end Verif.Coef
