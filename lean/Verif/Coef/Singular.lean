import Verif.Coef.Product
/-!
# Tables with factors that are not finite
-/

namespace Verif.Coef
open Verif.Invar Verif.Symm Verif.Oper Verif.Dm Verif.Mat

variable {𝕜 : Type} [RCLike 𝕜]

/-! ### Values of the factors for spin 1/2: zero times infinity -/

theorem factor_QS (env : Nat → ℝ) (h : env 1 = 1 / 2) : ∀ e, (factors_QS)[64]? = some e → (e.eval env).toReal = none := by
  intro e he
  simp only [factors_QS, List.getElem?_cons_succ, List.getElem?_cons_zero, Option.some.injEq] at he
  subst he
  simp only [Ex.eval, h, FVal.pow]
  norm_num [FVal.of, FVal.add, FVal.mul, FVal.neg, FVal.inv, FVal.sign, FVal.sqrt, FVal.hpow, FVal.toReal]

theorem factor_QSTZ (env : Nat → ℝ) (h : env 1 = 1 / 2) : ∀ e, (factors_QSTZ)[42]? = some e → (e.eval env).toReal = none := by
  intro e he
  simp only [factors_QSTZ, List.getElem?_cons_succ, List.getElem?_cons_zero, Option.some.injEq] at he
  subst he
  simp only [Ex.eval, h, FVal.pow]
  norm_num [FVal.of, FVal.add, FVal.mul, FVal.neg, FVal.inv, FVal.sign, FVal.sqrt, FVal.hpow, FVal.toReal]

/-- Factor 513 of class SPSU2T. -/
def factor513 : Ex :=
  .div (.mul (.neg (.num 1 2)) (.mul (.mul (.sqrt (.num 3 1)) (.sqrt (.div (.add (.add (.neg (.num 1 1))
    (.var 0)) (.mul (.num 2 1) (.pow (.var 0) 2))) (.add (.num 2 1) (.var 0))))) (.sub (.add (.add (.mul
    (.num 9 1) (.sqrt (.div (.add (.add (.num 3 1) (.mul (.num 5 1) (.var 0))) (.mul (.num 2 1) (.pow
    (.var 0) 2))) (.add (.neg (.num 1 1)) (.mul (.num 2 1) (.var 0)))))) (.mul (.mul (.num 20 1) (.var
    0)) (.sqrt (.div (.add (.add (.num 3 1) (.mul (.num 5 1) (.var 0))) (.mul (.num 2 1) (.pow (.var 0)
    2))) (.add (.neg (.num 1 1)) (.mul (.num 2 1) (.var 0))))))) (.mul (.mul (.num 4 1) (.pow (.var 0)
    2)) (.sqrt (.div (.add (.add (.num 3 1) (.mul (.num 5 1) (.var 0))) (.mul (.num 2 1) (.pow (.var 0)
    2))) (.add (.neg (.num 1 1)) (.mul (.num 2 1) (.var 0))))))) (.mul (.num 3 1) (.sqrt (.add (.add
    (.add (.neg (.num 3 1)) (.var 0)) (.mul (.num 8 1) (.pow (.var 0) 2))) (.mul (.num 4 1) (.pow (.var
    0) 3)))))))) (.pow (.add (.add (.num 3 1) (.mul (.num 5 1) (.var 0))) (.mul (.num 2 1) (.pow (.var 0)
    2))) 2)

theorem factor_SPSU2T (env : Nat → ℝ) (h : env 0 = 1 / 2) : (factor513.eval env).toReal = none := by
  simp only [factor513, Ex.eval, h, FVal.pow]
  norm_num [FVal.of, FVal.add, FVal.mul, FVal.neg, FVal.inv, FVal.sign, FVal.sqrt, FVal.hpow, FVal.toReal]

/-! ### A row with such a factor stops the run -/

theorem recalcOp_stops {T : OpTable} (hT : T ∈ opTables) (hW : T.Works) {old : Sizes} {diag : DiagU 𝕜} {sub : List (Label × List Nat)}
    {cold : Ops.Elements 𝕜} (hn : (diag.map Prod.fst).Nodup) {p : Label × Eig 𝕜} (hp : p ∈ diag) (h0 : 0 < p.2.nr)
    (hI : Valid (types T.builtin.sym.fields) p.1) (hz : T.builtin.symtype = "NONE" → p.1 = [0])
    {d : List Nat} (hd : sub.lookup p.1 = some d) (hd' : subspaceDims T.builtin.sym old p.1 = some d)
    {t : OpTarget} (ht : t ∈ T.targets) (hshift : evalLabel t.shift p.1 = p.1)
    (htri : triangle T.builtin.sym.fields p.1 p.1 t.iop = true) {r : OpRow} (hr : r ∈ t.rows.getD [])
    {A B : Label} (hA : evalLabel ((T.labs[r.a]?).getD []) p.1 = A) (hB : evalLabel ((T.labs[r.b]?).getD []) p.1 = B)
    (aA : allowed T.builtin.sym.fields A = true) (aB : allowed T.builtin.sym.fields B = true)
    (tA : ∀ x, T.builtin.sym.table[r.i1 - 1]? = some x → triangle T.builtin.sym.fields p.1 A x.2 = true)
    (tB : ∀ x, T.builtin.sym.table[r.ip - 1]? = some x → triangle T.builtin.sym.fields p.1 B x.2 = true)
    (sA : 0 < sizeSubspace old A) (sB : 0 < sizeSubspace old B) (hc : (cold.lookup (A, B)).isSome)
    (hf : (T.factor p.1 r.k).toReal = none) :
    recalcOp T diag sub cold = none := by
  have hsz : sizeSubspace (diag.map fun p => (p.1, p.2.nr)) p.1 = p.2.nr :=
    size_of_mem (p := (p.1, p.2.nr)) (by simpa [List.map_map, Function.comp_def] using hn) (List.mem_map.2 ⟨p, hp, rfl⟩)
  obtain ⟨r1, r2, r3, r4, r5, r6⟩ := row_facts hT hW hI hz ht r hr
  rw [hshift] at r6
  rw [hA] at r5
  rw [hB] at r6
  have hv := tables_rowsValid hT
  obtain ⟨_, hdd⟩ := dims_spec hv hI hd'
  obtain ⟨A', a1, a2⟩ := hdd (r.i1 - 1) (by omega)
  obtain ⟨B', b1, b2⟩ := hdd (r.ip - 1) (by omega)
  rw [r5] at a1; rw [r6] at b1
  cases a1; cases b1
  have i1 : r.i1 - 1 < T.builtin.sym.table.length := by have : T.builtin.sym.combs = T.builtin.sym.table.length := rfl; omega
  have ip : r.ip - 1 < T.builtin.sym.table.length := by have : T.builtin.sym.combs = T.builtin.sym.table.length := rfl; omega
  have cA : couplesTo T.builtin.sym p.1 (r.i1 - 1) A = true := by
    simp only [couplesTo, r5, beq_self_eq_true, Bool.true_and, List.getElem?_eq_getElem i1]
    exact tA _ (List.getElem?_eq_getElem i1)
  have cB : couplesTo T.builtin.sym p.1 (r.ip - 1) B = true := by
    simp only [couplesTo, r6, beq_self_eq_true, Bool.true_and, List.getElem?_eq_getElem ip]
    exact tB _ (List.getElem?_eq_getElem ip)
  rw [if_pos cA] at a2
  rw [if_pos cB] at b2
  unfold recalcOp
  rw [mapM_none_of_mem hp]
  · rfl
  rw [mapM_none_of_mem ht]
  · rfl
  unfold recalcTargetV
  cases hrs : t.rows with
  | none => rfl
  | some rs =>
    rw [hrs] at hr
    dsimp only
    rw [hshift, if_pos (by simp [haveStored, hsz, h0]), if_pos]
    refine ⟨htri, fun hall => ?_⟩
    have := hall d d hd hd r hr ⟨by rw [hA]; exact aA, by rw [hB]; exact aB, by rw [a2]; simpa using by omega,
      by rw [b2]; simpa using by omega, by dsimp only; rw [hA, hB]; exact hc⟩
    rw [hf] at this
    simp at this

theorem factor_nan {T : OpTable} {I : Label} {k : Nat} {e : Ex} (h : (factorsOf T.builtin.symtype)[k]? = some e)
    (he : (e.eval (labelEnv T.builtin.sym.fields I)).toReal = none) : (T.factor I k).toReal = none := by
  simp only [OpTable.factor, h]
  exact he

/-- The situation in which a run stops: the subspace `I` is in the step, and the operator had
a block between the subspaces `A` and `B` of the previous step. -/
structure Meets (T : OpTable) (old : Sizes) (diag : DiagU 𝕜) (sub : List (Label × List Nat)) (O : Ops.Elements 𝕜)
    (I A B : Label) : Prop where
  nodup : (diag.map Prod.fst).Nodup
  there : ∃ p ∈ diag, p.1 = I ∧ 0 < p.2.nr
  dims : ∃ d, sub.lookup I = some d ∧ subspaceDims T.builtin.sym old I = some d
  bra : 0 < sizeSubspace old A
  ket : 0 < sizeSubspace old B
  block : (O.lookup (A, B)).isSome

theorem stops_of_meets {T : OpTable} (hT : T ∈ opTables) (hW : T.Works) {old : Sizes} {diag : DiagU 𝕜} {sub : List (Label × List Nat)}
    {O : Ops.Elements 𝕜} {I A B : Label} (h : Meets T old diag sub O I A B)
    (hI : Valid (types T.builtin.sym.fields) I) (hz : T.builtin.symtype ≠ "NONE")
    (i : Nat) (t : OpTarget) (ht : T.targets[i]? = some t) (hshift : evalLabel t.shift I = I)
    (htri : triangle T.builtin.sym.fields I I t.iop = true) (j : Nat) (r : OpRow) (hr : (t.rows.getD [])[j]? = some r)
    (hA : evalLabel ((T.labs[r.a]?).getD []) I = A) (hB : evalLabel ((T.labs[r.b]?).getD []) I = B)
    (aA : allowed T.builtin.sym.fields A = true) (aB : allowed T.builtin.sym.fields B = true)
    (x y : Label × Label) (tA : T.builtin.sym.table[r.i1 - 1]? = some x) (tA' : triangle T.builtin.sym.fields I A x.2 = true)
    (tB : T.builtin.sym.table[r.ip - 1]? = some y) (tB' : triangle T.builtin.sym.fields I B y.2 = true)
    (hf : (T.factor I r.k).toReal = none) : recalcOp T diag sub O = none := by
  obtain ⟨p, hp, rfl, h0⟩ := h.there
  obtain ⟨d, hd, hd'⟩ := h.dims
  refine recalcOp_stops hT hW h.nodup hp h0 hI (fun h => absurd h hz) hd hd' (List.mem_of_getElem? ht) hshift htri
    (List.mem_of_getElem? hr) hA hB aA aB ?_ ?_ h.bra h.ket h.block hf
  · intro z hz; rw [tA] at hz; cases hz; exact tA'
  · intro z hz; rw [tB] at hz; cases hz; exact tB'

end Verif.Coef
