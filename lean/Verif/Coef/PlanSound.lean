import Verif.Coef.Disp
import Verif.Coef.Local
import Verif.Ops.Props
/-!
# From the kinds of site multiplets to the whole table
-/

namespace Verif.Coef
open Verif.Invar Verif.Symm Verif.Oper

/-! ### Sorting -/

theorem insertN_perm (x : Nat) (l : List Nat) : (insertN x l).Perm (x :: l) := by
  induction l with
  | nil => exact .refl _
  | cons y l ih =>
    simp only [insertN]
    split
    · exact .refl _
    · exact (List.Perm.cons y ih).trans (.swap x y l)

theorem sortN_perm (l : List Nat) : (sortN l).Perm l := by
  induction l with
  | nil => exact .refl _
  | cons x l ih => exact (insertN_perm x _).trans (ih.cons x)

theorem increasing_pairwise : ∀ {l : List Nat}, increasing l = true → l.Pairwise (· < ·)
  | [], _ => .nil
  | [x], _ => by simp
  | x :: y :: l, h => by
    simp only [increasing, Bool.and_eq_true, Nat.blt_eq] at h
    have ih := increasing_pairwise h.2
    refine List.pairwise_cons.2 ⟨?_, ih⟩
    intro z hz
    rcases List.mem_cons.1 hz with rfl | hz
    · exact h.1
    · exact h.1.trans ((List.pairwise_cons.1 ih).1 z hz)

theorem beqN_eq {l m : List Nat} (h : beqN l m = true) : l = m := by
  induction l generalizing m with
  | nil => cases m <;> simp_all [beqN]
  | cons x l ih =>
    cases m with
    | nil => simp [beqN] at h
    | cons y m =>
      simp only [beqN, Bool.and_eq_true, Nat.beq_eq] at h
      rw [h.1, ih h.2]

/-! ### Codes of rows -/

def unCode (c : Nat) : Nat × (Nat × Nat × Nat) := (c / 4096 / 64 / 64, (c / 4096 / 64 % 64, c / 4096 % 64, c % 4096))

def rowLoc (P : Plan) (r : OpRow) : Nat × (Nat × Nat × Nat) :=
  (P.grp (r.i1 - 1), (P.pos (r.i1 - 1), P.pos (r.ip - 1), r.k))

theorem unCode_row (P : Plan) (r : OpRow) (h : r.k < 4096) : unCode (rowCode P r) = rowLoc P r := by
  simp only [unCode, rowCode, rowLoc, Plan.grp, Prod.mk.injEq]
  have hp : P.pos (r.i1 - 1) = P.code (r.i1 - 1) % 64 := rfl
  have hq : P.pos (r.ip - 1) < 64 := Nat.mod_lt _ (by norm_num)
  rw [hp]
  generalize P.code (r.i1 - 1) = c at *
  generalize P.pos (r.ip - 1) = q at *
  refine ⟨?_, ?_, ?_, ?_⟩ <;> omega

theorem unCode_triple (a : Nat) (x : Nat × Nat × Nat) (h1 : x.1 < 64) (h2 : x.2.1 < 64) (h3 : x.2.2 < 4096) :
    unCode (tripleCode a x) = (a, x) := by
  obtain ⟨p, q, k⟩ := x
  simp only [unCode, tripleCode, Prod.mk.injEq] at *
  refine ⟨?_, ?_, ?_, ?_⟩ <;> omega

theorem sum_groups {β : Type} (l : List (Nat × Label)) (R : Nat → List β) (G : Nat × β → ℝ) (n i m : Nat) (b : Label)
    (hl : l[i]? = some (m, b)) (hG : ∀ a x, a ≠ n + i → G (a, x) = 0) :
    (((l.zipIdx n).flatMap fun p => (R p.1.1).map fun x => (p.2, x)).map G).sum =
      ((R m).map fun x => G (n + i, x)).sum := by
  have zero : ∀ (l : List (Nat × Label)) (k : Nat), n + i < k →
      (((l.zipIdx k).flatMap fun p => (R p.1.1).map fun x => (p.2, x)).map G).sum = 0 := by
    intro l k hk
    refine List.sum_eq_zero fun y hy => ?_
    obtain ⟨z, hz, rfl⟩ := List.mem_map.1 hy
    obtain ⟨p, hp, hz⟩ := List.mem_flatMap.1 hz
    obtain ⟨x, _, rfl⟩ := List.mem_map.1 hz
    obtain ⟨p1, p2⟩ := p
    have := (List.mem_zipIdx hp).1
    exact hG _ _ (by dsimp only at *; omega)
  induction l generalizing n i with
  | nil => simp at hl
  | cons y l ih =>
    rw [List.zipIdx_cons, List.flatMap_cons, List.map_append, List.sum_append]
    cases i with
    | zero =>
      simp only [List.getElem?_cons_zero, Option.some.injEq] at hl
      subst hl
      rw [zero l (n + 1) (by omega), add_zero, List.map_map]
      rfl
    | succ i =>
      simp only [List.getElem?_cons_succ] at hl
      have := ih (n + 1) i hl (fun a x h => hG a x (by omega)) (fun l k hk => zero l k (by omega))
      rw [this, List.map_map, List.sum_eq_zero, zero_add]
      · congr 2; funext x; congr 2; omega
      · intro y hy
        obtain ⟨z, _, rfl⟩ := List.mem_map.1 hy
        exact hG _ _ (by omega)

/-! ### What the checks of the plan give -/

/-- The rows of target `t` in a kind of multiplet. -/
def Plan.rowsAt (P : Plan) (t m : Nat) : List (Nat × Nat × Nat) :=
  match P.mts[m]? with
  | some m => (m.rows[t]?).getD []
  | none => []

theorem rows_perm {P : Plan} {n : Nat} {t : OpTarget} {i : Nat} (h : targetOk P n t i = true)
    (hm : ∀ m ∈ P.mts, ∀ l ∈ m.rows, ∀ x ∈ l, x.1 < 64 ∧ x.2.1 < 64 ∧ x.2.2 < 4096) :
    ∃ rs, t.rows = some rs ∧ (∀ r ∈ rs, rowOk P n r = true) ∧
      (rs.map (rowLoc P)).Perm ((P.inst.zipIdx).flatMap fun p => (P.rowsAt i p.1.1).map fun x => (p.2, x)) := by
  simp only [targetOk] at h
  cases hr : t.rows with
  | none => rw [hr] at h; cases h
  | some rs =>
    rw [hr] at h
    simp only [Bool.and_eq_true, List.all_eq_true] at h
    refine ⟨rs, rfl, h.1, ?_⟩
    have h2 := beqN_eq h.2
    have hp := (sortN_perm (rs.map (rowCode P))).symm
    rw [h2] at hp
    have hp := hp.map unCode
    rw [List.map_map] at hp
    have e1 : rs.map (unCode ∘ rowCode P) = rs.map (rowLoc P) := by
      refine List.map_congr_left fun r hr => ?_
      have := h.1 r hr
      simp only [rowOk, Bool.and_eq_true, Nat.blt_eq] at this
      exact unCode_row P r this.2.2.2.2.2
    have e2 : (expected P i).map unCode = (P.inst.zipIdx).flatMap fun p => (P.rowsAt i p.1.1).map fun x => (p.2, x) := by
      rw [expected, List.map_flatMap]
      congr 1
      funext p
      simp only [Plan.rowsAt]
      cases hm' : P.mts[p.1.1]? with
      | none => rfl
      | some m =>
        simp only [List.map_map]
        refine List.map_congr_left fun x hx => ?_
        cases hl : m.rows[i]? with
        | none => rw [hl] at hx; simp at hx
        | some l =>
          rw [hl] at hx
          obtain ⟨a, b, c⟩ := hm m (List.mem_of_getElem? hm') l (List.mem_of_getElem? hl) x hx
          exact unCode_triple _ _ a b c
    rw [e1, e2] at hp
    exact hp

/-- What is known about a combination. -/
structure CombSpec (fs : List Field) (P : Plan) (r : Label × Label) (i mi : Nat) (m : MType) (base a : Label) : Prop where
  inst : P.inst[P.grp i]? = some (mi, base)
  kind : P.mts[mi]? = some m
  ins : m.ins[P.pos i]? = some a
  disp : r.1 = dmul (types fs) base a
  site : spinPart fs r.2 = m.qn
  other : otherTri fs (done (types fs)) r.1 r.2 = true
  baseSpin : spinPart fs base = done (types fs)
  baseOk : labelOk (types fs) base = true
  len2 : r.2.length = fs.length
  lenA : a.length = fs.length

theorem combOk_spec {fs : List Field} {P : Plan} {r : Label × Label} {i : Nat} (h : combOk fs P r i = true) :
    ∃ mi m base a, CombSpec fs P r i mi m base a := by
  simp only [combOk, Plan.kind] at h
  cases h1 : P.inst[P.grp i]? with
  | none => rw [h1] at h; cases h
  | some p =>
    obtain ⟨mi, base⟩ := p
    rw [h1] at h
    cases h2 : P.mts[mi]? with
    | none => simp only [h2, Option.map_none] at h; cases h
    | some m =>
      simp only [h2, Option.map_some] at h
      cases h3 : m.ins[P.pos i]? with
      | none => rw [h3] at h; cases h
      | some a =>
        rw [h3] at h
        simp only [Bool.and_eq_true, beq_iff_eq] at h
        obtain ⟨a1, a2, a3, a4, _, a6, a7, a8⟩ := h
        exact ⟨mi, m, base, a, h1, h2, h3, a1, a2, a3, a4, a6, a7, a8⟩

structure PlanSpec (T : OpTable) (P : Plan) (ds : List (Label × Label)) : Prop where
  fields : T.builtin.sym.fields.all fieldOk' = true
  combs : ∀ i r, T.builtin.sym.table[i]? = some r → ∃ mi m base a, CombSpec T.builtin.sym.fields P r i mi m base a
  inj : ∀ i j, i < T.builtin.sym.table.length → j < T.builtin.sym.table.length → P.code i = P.code j → i = j
  targets : ∀ (i : Nat) t, T.targets[i]? = some t → targetOk P T.builtin.sym.table.length t i = true
  mlen : ∀ m ∈ P.mts, m.rows.length = T.targets.length
  bounds : ∀ m ∈ P.mts, ∀ l ∈ m.rows, ∀ x ∈ l, x.1 < 64 ∧ x.2.1 < 64 ∧ x.2.2 < 4096
  disps : dispsOf T = some ds
  dOther : ∀ d ∈ ds, otherTri T.builtin.sym.fields (done (types T.builtin.sym.fields)) d.1 d.2 = true
  dOk : ∀ d ∈ ds, labelOk (types T.builtin.sym.fields) d.1 = true
  cLen : ∀ d ∈ ds, d.2.length = T.builtin.sym.fields.length

theorem planOk_spec {T : OpTable} {P : Plan} (h : planOk T P = true) : ∃ ds, PlanSpec T P ds := by
  simp only [planOk, Bool.and_eq_true] at h
  obtain ⟨h1, h2, h3, h4, h5, h6⟩ := h
  cases hd : dispsOf T with
  | none => rw [hd] at h6; cases h6
  | some ds =>
    rw [hd] at h6
    simp only [List.all_eq_true, Bool.and_eq_true, beq_iff_eq, Nat.blt_eq] at h2 h4 h5 h6
    refine ⟨ds, h1, ?_, ?_, ?_, ?_, ?_, hd, fun d hd => (h6 d hd).1, fun d hd => (h6 d hd).2.1, fun d hd => (h6 d hd).2.2⟩
    · intro i r hr
      exact combOk_spec (h2 (r, i) (by rw [List.mk_mem_zipIdx_iff_getElem?]; exact hr))
    · intro i j hi hj hc
      have hn : (sortN ((List.range T.builtin.sym.table.length).map P.code)).Nodup :=
        (increasing_pairwise h3).imp (fun h => Nat.ne_of_lt h)
      have hn := (sortN_perm _).nodup_iff.1 hn
      exact List.inj_on_of_nodup_map hn (List.mem_range.2 hi) (List.mem_range.2 hj) hc
    · intro i t ht
      exact h4 (t, i) (by rw [List.mk_mem_zipIdx_iff_getElem?]; exact ht)
    · exact fun m hm => (h5 m hm).1
    · intro m hm l hl x hx
      have := (h5 m hm).2 l hl x hx
      exact ⟨this.1, this.2.1, this.2.2⟩

/-- The targets and their displacements. -/
theorem disps_get {T : OpTable} {P : Plan} {ds : List (Label × Label)} (h : PlanSpec T P ds) :
    ds.length = T.targets.length ∧ ∀ (i : Nat) (t : OpTarget), T.targets[i]? = some t → ∃ d, ds[i]? = some (d, t.iop) ∧
      dispOf (T.builtin.symtype == "NONE") T.builtin.sym.fields t.shift = some d := by
  have := h.disps
  rw [dispsOf] at this
  obtain ⟨h1, h2⟩ := Ops.mapM_getElem? _ _ _ this
  refine ⟨h1, ?_⟩
  intro i t ht
  obtain ⟨hi, _⟩ := List.getElem?_eq_some_iff.1 ht
  have h3 := h2 i
  rw [ht, Option.bind_some, List.getElem?_eq_getElem (by omega)] at h3
  obtain ⟨d, hd, e⟩ := Option.map_eq_some_iff.1 h3.symm
  exact ⟨d, by rw [List.getElem?_eq_getElem (by omega), ← e], hd⟩

end Verif.Coef
