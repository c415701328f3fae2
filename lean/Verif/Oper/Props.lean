import Verif.Oper.Lemmas
import Verif.Symm.StructureSum
import Verif.Invar.Props
import Verif.Dm.Lemmas
/-!
# C75: operators are carried to the next step without losing blocks
-/

namespace Verif.Oper
open Verif.Invar Verif.Symm

theorem tables_rowsOk : ∀ T ∈ opTables, T.Works → T.targets.all (rowsOk T) = true := by decide +kernel

theorem tables_coverOk : ∀ T ∈ opTables, T.Works → coverOk T = true := by decide +kernel

theorem tables_fieldOk : ∀ T ∈ opTables, ∀ f ∈ T.builtin.sym.fields, fieldOk f = true := by decide +kernel

theorem tables_apartOk : ∀ T ∈ opTables, T.Works → apartOk T = true := by decide +kernel

/-- The site states of the two combinations of a row have the same quantum numbers. -/
def siteOk (T : OpTable) (t : OpTarget) : Bool :=
  (t.rows.getD []).all fun r =>
    (T.builtin.sym.table[r.i1 - 1]?).map Prod.snd == (T.builtin.sym.table[r.ip - 1]?).map Prod.snd

theorem tables_siteOk : ∀ T ∈ opTables, T.Works → T.targets.all (siteOk T) = true := by decide +kernel

theorem tables_rowsValid {T : OpTable} (hT : T ∈ opTables) : RowsValid T.builtin.sym := by
  have h : T.builtin ∈ opTables.map OpTable.builtin := List.mem_map_of_mem hT
  rw [tables_builtins, List.mem_filterMap] at h
  obtain ⟨i, _, hi⟩ := h
  obtain ⟨ms, h⟩ := builtins_decompose T.builtin (List.mem_of_getElem? hi)
  exact rowsValid_of_decomposes _ ms h

theorem apart_eval {fs : List Field} {s t : LabelExpr} {I : Label} (h : apart fs s t = true)
    (hI : Valid (types fs) I) : evalLabel s I ≠ evalLabel t I := by
  induction fs generalizing s t I with
  | nil => cases s <;> cases t <;> simp [apart] at h
  | cons f fs ih =>
    obtain ⟨y, I, hy, hI', rfl⟩ := List.forall₂_cons_left_iff.1 hI
    match s, t, h with
    | .plus a :: as, .plus b :: bs, h =>
      simp only [apart, Bool.or_eq_true, bne_iff_ne] at h
      simp only [evalLabel, Comp.eval, ne_eq, List.cons.injEq, not_and]
      intro e
      rcases h with h | h
      · omega
      · exact ih h hI'
    | .times a :: as, .times b :: bs, h =>
      simp only [apart, Bool.or_eq_true, Bool.and_eq_true, decide_eq_true_eq, bne_iff_ne] at h
      simp only [evalLabel, Comp.eval, ne_eq, List.cons.injEq, not_and]
      intro e
      rcases h with h | h
      · rw [h.1] at hy
        rcases hy with rfl | rfl <;> omega
      · exact ih h hI'

/-- Row checks, decoded. -/
theorem row_spec {T : OpTable} (hT : T ∈ opTables) (hW : T.Works) {t : OpTarget} (ht : t ∈ T.targets) :
    ∃ rs, t.rows = some rs ∧ ∀ r ∈ rs, ∃ r1 rp, 1 ≤ r.i1 ∧ 1 ≤ r.ip ∧
      T.builtin.sym.table[r.i1 - 1]? = some r1 ∧ T.builtin.sym.table[r.ip - 1]? = some rp ∧
      isAnc (noSym T) T.builtin.sym.fields ((T.labs[r.a]?).getD []) r1.1 = true ∧
      isAncOf (noSym T) T.builtin.sym.fields t.shift ((T.labs[r.b]?).getD []) rp.1 = true := by
  have h := List.all_eq_true.1 (tables_rowsOk T hT hW) t ht
  simp only [rowsOk] at h
  cases hr : t.rows with
  | none => rw [hr] at h; cases h
  | some rs =>
    rw [hr] at h
    refine ⟨rs, rfl, fun r hrs => ?_⟩
    have h := List.all_eq_true.1 h r hrs
    simp only [Bool.and_eq_true, decide_eq_true_eq] at h
    obtain ⟨h1, h2, h3⟩ := h
    split at h3
    · rename_i r1 rp la lb e1 e2 e3 e4
      simp only [Bool.and_eq_true] at h3
      exact ⟨r1, rp, h1, h2, e1, e2, by rw [e3]; exact h3.1, by rw [e4]; exact h3.2⟩
    · cases h3

/-- A label expression in a row never disagrees with the ancestor it stands for. -/
theorem row_labels {T : OpTable} {t : OpTarget} {I1 : Label}
    (hI : Valid (types T.builtin.sym.fields) I1) (hz : T.builtin.symtype = "NONE" → I1 = [0])
    (hp : Valid (types T.builtin.sym.fields) (evalLabel t.shift I1)) {r : OpRow} {r1 rp : Label × Label}
    (e1 : T.builtin.sym.table[r.i1 - 1]? = some r1) (e2 : T.builtin.sym.table[r.ip - 1]? = some rp)
    (h1 : isAnc (noSym T) T.builtin.sym.fields ((T.labs[r.a]?).getD []) r1.1 = true)
    (h2 : isAncOf (noSym T) T.builtin.sym.fields t.shift ((T.labs[r.b]?).getD []) rp.1 = true) :
    T.builtin.sym.ancestor I1 (r.i1 - 1) = some (evalLabel ((T.labs[r.a]?).getD []) I1) ∧
    T.builtin.sym.ancestor (evalLabel t.shift I1) (r.ip - 1) = some (evalLabel ((T.labs[r.b]?).getD []) I1) := by
  have hz' : noSym T = true → ∀ y ∈ I1, y = 0 := by
    intro h y hy
    have := hz (by simpa [noSym] using h)
    subst this; simpa using hy
  constructor
  · simp only [Symmetry.ancestor, e1, Option.bind_eq_bind, Option.bind_some]
    exact isAnc_sound h1 hI hz'
  · simp only [Symmetry.ancestor, e2, Option.bind_eq_bind, Option.bind_some]
    exact isAncOf_sound h2 hI hp hz'

theorem getElem?_lt {α} {l : List α} {i : Nat} {x : α} (hi : 1 ≤ i) (h : l[i - 1]? = some x) : i ≤ l.length := by
  obtain ⟨h, _⟩ := List.getElem?_eq_some_iff.1 h
  omega

/-- One pass through the loop of `recalc_general`, for a row that names the ancestors:
involved blocks contribute, the others are skipped. -/
theorem useRow_core {S : Symmetry} (hv : RowsValid S) {I1 Ip A B : Label} {old : Sizes}
    {cold : List OpMatrix} (hc : Fits old cold) {d1 dp : List Nat}
    (hI : Valid (types S.fields) I1) (hp : Valid (types S.fields) Ip)
    (hd1 : subspaceDims S old I1 = some d1) (hdp : subspaceDims S old Ip = some dp)
    {n1 np : Nat} {r1 rp : Label × Label} (i1 : 1 ≤ n1) (ip : 1 ≤ np)
    (e1 : S.table[n1 - 1]? = some r1) (e2 : S.table[np - 1]? = some rp)
    (a1 : S.ancestor I1 (n1 - 1) = some A) (a2 : S.ancestor Ip (np - 1) = some B) (fin : Bool) :
    (Involved S old cold I1 Ip n1 np → fin = true →
      useRow S d1 dp cold I1 Ip ⟨n1, np, A, B, fin⟩ = .term n1 np) ∧
    (¬ Involved S old cold I1 Ip n1 np → useRow S d1 dp cold I1 Ip ⟨n1, np, A, B, fin⟩ = .skip) := by
  have b1 : combine (types S.fields) I1 r1.1 = some A := by
    simpa [Symmetry.ancestor, e1] using a1
  have b2 : combine (types S.fields) Ip rp.1 = some B := by
    simpa [Symmetry.ancestor, e2] using a2
  have c1 : anc S I1 r1 = A := by
    simp only [anc]; rw [combine_comm _ _ _ (hv r1 (List.mem_of_getElem? e1)).1 hI, b1]; rfl
  have c2 : anc S Ip rp = B := by
    simp only [anc]; rw [combine_comm _ _ _ (hv rp (List.mem_of_getElem? e2)).1 hp, b2]; rfl
  rw [subspaceDims_eq _ hv old I1 hI] at hd1
  rw [subspaceDims_eq _ hv old Ip hp] at hdp
  have g1 : (d1[n1 - 1]?).getD 0 = if triangle S.fields I1 A r1.2 then sizeSubspace old A else 0 := by
    cases hd1; simp [e1, c1]
  have g2 : (dp[np - 1]?).getD 0 = if triangle S.fields Ip B rp.2 then sizeSubspace old B else 0 := by
    cases hdp; simp [e2, c2]
  have hr : 1 ≤ n1 ∧ n1 ≤ S.combs ∧ 1 ≤ np ∧ np ≤ S.combs :=
    ⟨i1, getElem?_lt i1 e1, ip, getElem?_lt ip e2⟩
  have hinv : Involved S old cold I1 Ip n1 np ↔
      allowed S.fields A = true ∧ allowed S.fields B = true ∧
      (d1[n1 - 1]?).getD 0 ≠ 0 ∧ (dp[np - 1]?).getD 0 ≠ 0 ∧ ∃ m ∈ cold, m.bra = A ∧ m.ket = B := by
    rw [g1, g2]
    constructor
    · rintro ⟨r1', rp', A', B', _, _, q1, q2, q3, q4, q5, q6, q7, q8, q9, q10, q11⟩
      rw [e1] at q1; rw [e2] at q2; cases q1; cases q2
      rw [b1] at q3; rw [b2] at q4; cases q3; cases q4
      rw [if_pos q7, if_pos q8]
      exact ⟨q5, q6, by omega, by omega, q11⟩
    · rintro ⟨q5, q6, q7, q8, q9⟩
      have t1 : triangle S.fields I1 A r1.2 = true := by
        by_contra h; rw [if_neg h] at q7; exact q7 rfl
      have t2 : triangle S.fields Ip B rp.2 = true := by
        by_contra h; rw [if_neg h] at q8; exact q8 rfl
      rw [if_pos t1] at q7; rw [if_pos t2] at q8
      exact ⟨r1, rp, A, B, i1, ip, e1, e2, b1, b2, q5, q6, t1, t2, by omega, by omega, q9⟩
  rw [hinv]
  unfold useRow
  simp only [hr, and_self, not_true_eq_false, if_false, a1, a2, ne_eq]
  constructor
  · rintro ⟨q5, q6, q7, q8, m, hm, rfl, rfl⟩ rfl
    rw [q5, q6]
    simp only [Bool.and_self, Bool.not_true, Bool.false_eq_true, if_false, q7, q8, or_self]
    cases hf : findOp cold m.bra m.ket with
    | none =>
      simp only [findOp, List.find?_eq_none] at hf
      exact absurd (hf m hm) (by simp)
    | some m' =>
      have hb := List.find?_some hf
      simp only [Bool.and_eq_true, beq_iff_eq] at hb
      have hF := hc m' (List.mem_of_find?_eq_some hf)
      rw [hb.1, hb.2] at hF
      have z1 : (d1[n1 - 1]?).getD 0 = sizeSubspace old m.bra := by
        by_cases h : triangle S.fields I1 m.bra r1.2 = true
        · rw [g1, if_pos h]
        · rw [g1, if_neg h] at q7; exact absurd rfl q7
      have z2 : (dp[np - 1]?).getD 0 = sizeSubspace old m.ket := by
        by_cases h : triangle S.fields Ip m.ket rp.2 = true
        · rw [g2, if_pos h]
        · rw [g2, if_neg h] at q8; exact absurd rfl q8
      simp [z1, z2, hF]
  · intro hn
    by_cases q5 : (allowed S.fields A && allowed S.fields B) = true
    · by_cases q7 : (d1[n1 - 1]?).getD 0 = 0 ∨ (dp[np - 1]?).getD 0 = 0
      · simp [q5, q7]
      · simp only [q5, Bool.not_true, Bool.false_eq_true, if_false, q7]
        cases hf : findOp cold A B with
        | none => rfl
        | some m' =>
          exfalso
          have hb := List.find?_some hf
          simp only [Bool.and_eq_true, beq_iff_eq] at hb
          simp only [Bool.and_eq_true] at q5
          push Not at q7
          exact hn ⟨q5.1, q5.2, q7.1, q7.2, m', List.mem_of_find?_eq_some hf, hb.1, hb.2⟩
    · simp [q5]

/-- The same for the rows of the tables. -/
theorem useRow_spec {T : OpTable} (hT : T ∈ opTables) {t : OpTarget} {I1 : Label} {old : Sizes}
    {cold : List OpMatrix} (hc : Fits old cold) {d1 dp : List Nat}
    (hI : Valid (types T.builtin.sym.fields) I1) (hz : T.builtin.symtype = "NONE" → I1 = [0])
    (hp : Valid (types T.builtin.sym.fields) (evalLabel t.shift I1))
    (hd1 : subspaceDims T.builtin.sym old I1 = some d1)
    (hdp : subspaceDims T.builtin.sym old (evalLabel t.shift I1) = some dp)
    {r : OpRow} {r1 rp : Label × Label} (i1 : 1 ≤ r.i1) (ip : 1 ≤ r.ip)
    (e1 : T.builtin.sym.table[r.i1 - 1]? = some r1) (e2 : T.builtin.sym.table[r.ip - 1]? = some rp)
    (h1 : isAnc (noSym T) T.builtin.sym.fields ((T.labs[r.a]?).getD []) r1.1 = true)
    (h2 : isAncOf (noSym T) T.builtin.sym.fields t.shift ((T.labs[r.b]?).getD []) rp.1 = true) (fin : Bool) :
    (Involved T.builtin.sym old cold I1 (evalLabel t.shift I1) r.i1 r.ip → fin = true →
      useRow T.builtin.sym d1 dp cold I1 (evalLabel t.shift I1) ⟨r.i1, r.ip, evalLabel ((T.labs[r.a]?).getD []) I1,
        evalLabel ((T.labs[r.b]?).getD []) I1, fin⟩ = .term r.i1 r.ip) ∧
    (¬ Involved T.builtin.sym old cold I1 (evalLabel t.shift I1) r.i1 r.ip →
      useRow T.builtin.sym d1 dp cold I1 (evalLabel t.shift I1) ⟨r.i1, r.ip, evalLabel ((T.labs[r.a]?).getD []) I1,
        evalLabel ((T.labs[r.b]?).getD []) I1, fin⟩ = .skip) := by
  obtain ⟨a1, a2⟩ := row_labels hI hz hp e1 e2 h1 h2
  exact useRow_core (tables_rowsValid hT) hc hI hp hd1 hdp i1 ip e1 e2 a1 a2 fin

/-- The loop over a table: the involved rows are those used. -/
theorem useRows_spec {S : Symmetry} {d1 dp : List Nat} {cold : List OpMatrix} {I1 Ip : Label}
    {P : Nat → Nat → Prop} (vs : List RowVal)
    (h : ∀ v ∈ vs, (P v.i1 v.ip → useRow S d1 dp cold I1 Ip v = .term v.i1 v.ip) ∧
      (¬ P v.i1 v.ip → useRow S d1 dp cold I1 Ip v = .skip)) :
    ∃ ts, useRows S d1 dp cold I1 Ip vs = some ts ∧
      ∀ i j, (i, j) ∈ ts ↔ P i j ∧ ∃ v ∈ vs, v.i1 = i ∧ v.ip = j := by
  induction vs with
  | nil => exact ⟨[], rfl, by simp⟩
  | cons v vs ih =>
    obtain ⟨ts, e, hts⟩ := ih fun v hv => h v (List.mem_cons_of_mem _ hv)
    obtain ⟨h1, h2⟩ := h v List.mem_cons_self
    by_cases hp : P v.i1 v.ip
    · refine ⟨(v.i1, v.ip) :: ts, by simp [useRows, h1 hp, e], fun i j => ?_⟩
      rw [List.mem_cons, hts, Prod.mk.injEq]
      constructor
      · rintro (⟨rfl, rfl⟩ | ⟨a, w, hw, b⟩)
        · exact ⟨hp, v, List.mem_cons_self, rfl, rfl⟩
        · exact ⟨a, w, List.mem_cons_of_mem _ hw, b⟩
      · rintro ⟨a, w, hw, rfl, rfl⟩
        rcases List.mem_cons.1 hw with rfl | hw
        · exact .inl ⟨rfl, rfl⟩
        · exact .inr ⟨a, w, hw, rfl, rfl⟩
    · refine ⟨ts, by simp [useRows, h2 hp, e], fun i j => ?_⟩
      rw [hts]
      constructor
      · rintro ⟨a, w, hw, b⟩
        exact ⟨a, w, List.mem_cons_of_mem _ hw, b⟩
      · rintro ⟨a, w, hw, rfl, rfl⟩
        rcases List.mem_cons.1 hw with rfl | hw
        · exact absurd a hp
        · exact ⟨a, w, hw, rfl, rfl⟩

theorem mem_of_size_pos {diag : Sizes} {I : Label} (h : 0 < sizeSubspace diag I) :
    ∃ n, (I, n) ∈ diag := by
  simp only [sizeSubspace] at h
  cases hl : diag.lookup I with
  | none => rw [hl] at h; exact absurd h (by simp)
  | some n => exact ⟨n, Dm.mem_of_lookup _ _ _ hl⟩

/-- What one target contributes for one bra label. -/
theorem recalcTarget_spec {T : OpTable} (hT : T ∈ opTables) (hW : T.Works) {old diag : Sizes}
    (hd : T.Labels diag) {cold : List OpMatrix} (hc : Fits old cold) (fin : Label → Nat → Bool)
    {t : OpTarget} (ht : t ∈ T.targets) {I1 : Label} (hI : Valid (types T.builtin.sym.fields) I1)
    (hz : T.builtin.symtype = "NONE" → I1 = [0])
    (hfin : triangle T.builtin.sym.fields I1 (evalLabel t.shift I1) t.iop = true → ∀ rs, t.rows = some rs → ∀ r ∈ rs,
      Involved T.builtin.sym old cold I1 (evalLabel t.shift I1) r.i1 r.ip → fin I1 r.k = true) :
    ∃ out, recalcTarget T fin old diag cold I1 t = some out ∧ out.length ≤ 1 ∧
      ((∃ m, m ∈ out) ↔ 0 < sizeSubspace diag I1 ∧ 0 < sizeSubspace diag (evalLabel t.shift I1) ∧
        triangle T.builtin.sym.fields I1 (evalLabel t.shift I1) t.iop = true) ∧
      ∀ m ∈ out, m.bra = I1 ∧ m.ket = evalLabel t.shift I1 ∧ m.rows = sizeSubspace diag m.bra ∧
        m.cols = sizeSubspace diag m.ket ∧
        ∃ rs, t.rows = some rs ∧ ∀ i j, (i, j) ∈ m.terms ↔
          Involved T.builtin.sym old cold m.bra m.ket i j ∧ ∃ r ∈ rs, r.i1 = i ∧ r.ip = j := by
  obtain ⟨rs, hrs, hr⟩ := row_spec hT hW ht
  simp only [recalcTarget, hrs]
  by_cases hs : haveStored diag I1 (evalLabel t.shift I1) = true
  · simp only [haveStored, Bool.and_eq_true, decide_eq_true_eq] at hs
    obtain ⟨n, hn⟩ := mem_of_size_pos hs.2
    have hp := (hd _ hn).1
    have hst : haveStored diag I1 (evalLabel t.shift I1) = true := by simp [haveStored, hs]
    simp only [hst, if_true]
    have hv := tables_rowsValid hT
    have hd1 := subspaceDims_eq _ hv old I1 hI
    have hdp := subspaceDims_eq _ hv old _ hp
    obtain ⟨d1, hd1⟩ : ∃ d, subspaceDims T.builtin.sym old I1 = some d := ⟨_, hd1⟩
    obtain ⟨dp, hdp⟩ : ∃ d, subspaceDims T.builtin.sym old (evalLabel t.shift I1) = some d := ⟨_, hdp⟩
    have n1 : sizeSubspace diag I1 ≠ 0 := by omega
    have n2 : sizeSubspace diag (evalLabel t.shift I1) ≠ 0 := by omega
    by_cases htr : triangle T.builtin.sym.fields I1 (evalLabel t.shift I1) t.iop = true
    · obtain ⟨ts, hts, hmem⟩ := useRows_spec (S := T.builtin.sym) (d1 := d1) (dp := dp) (cold := cold)
        (I1 := I1) (Ip := evalLabel t.shift I1)
        (P := Involved T.builtin.sym old cold I1 (evalLabel t.shift I1)) (T.vals fin I1 rs) (by
          intro v hv
          obtain ⟨r, hrr, rfl⟩ := List.mem_map.1 hv
          obtain ⟨r1, rp, i1, ip, e1, e2, h1, h2⟩ := hr r hrr
          obtain ⟨u1, u2⟩ := useRow_spec hT hc hI hz hp hd1 hdp i1 ip e1 e2 h1 h2 (fin I1 r.k)
          exact ⟨fun h => u1 h (hfin htr rs hrs r hrr h), u2⟩)
      have hm' : ∀ i j, (i, j) ∈ ts ↔ Involved T.builtin.sym old cold I1 (evalLabel t.shift I1) i j ∧
          ∃ r ∈ rs, r.i1 = i ∧ r.ip = j := by
        intro i j; rw [hmem]; simp [OpTable.vals]
      refine ⟨[⟨I1, evalLabel t.shift I1, sizeSubspace diag I1, sizeSubspace diag (evalLabel t.shift I1), ts⟩],
        by simp [recalcGeneral, htr, n1, n2, hd1, hdp, hts], by simp, ?_, ?_⟩
      · exact ⟨fun _ => ⟨hs.1, hs.2, htr⟩, fun _ => ⟨_, List.mem_singleton_self _⟩⟩
      · intro m hm
        rw [List.mem_singleton] at hm
        subst hm
        exact ⟨rfl, rfl, rfl, rfl, rs, rfl, hm'⟩
    · exact ⟨[], by simp [recalcGeneral, htr], by simp, by simp [htr], by simp⟩
  · refine ⟨[], by simp [hs], by simp, ?_, by simp⟩
    simp only [haveStored, Bool.and_eq_true, decide_eq_true_eq, not_and] at hs
    simp only [List.not_mem_nil, exists_false, false_iff, not_and]
    exact fun a b => absurd b (hs a)

/-- The targets of a function are the labels its operators lead to. -/
theorem targets_spec {T : OpTable} (hT : T ∈ opTables) (hW : T.Works) {I1 Ip : Label}
    (hI : Valid (types T.builtin.sym.fields) I1) (hz : T.builtin.symtype = "NONE" → I1 = [0])
    (hp : Valid (types T.builtin.sym.fields) Ip) :
    (∃ t ∈ T.targets, evalLabel t.shift I1 = Ip ∧ triangle T.builtin.sym.fields I1 Ip t.iop = true) ↔
      ∃ c ∈ T.iops, Carries T.builtin.sym.fields I1 Ip c := by
  have hz' : noSym T = true → ∀ y ∈ I1, y = 0 := by
    intro h y hy
    have := hz (by simpa [noSym] using h)
    subst this; simpa using hy
  have hcov := tables_coverOk T hT hW
  simp only [coverOk, List.all_eq_true, Bool.and_eq_true, beq_iff_eq, List.any_eq_true] at hcov
  have hf := tables_fieldOk T hT
  constructor
  · rintro ⟨t, ht, he, htr⟩
    obtain ⟨hl, ⟨e, hes, hse⟩, _⟩ := hcov t ht
    refine ⟨t.iop, List.mem_map_of_mem ht, (shifts_spec _ hf I1 Ip t.iop hl hI hp).1 ⟨e, hes, ?_, htr⟩⟩
    rw [← sameExpr_eval hse hz', he]
  · rintro ⟨c, hc, hcar⟩
    obtain ⟨t, ht, rfl⟩ := List.mem_map.1 hc
    obtain ⟨hl, _, hall⟩ := hcov t ht
    obtain ⟨e, hes, he, htr⟩ := (shifts_spec _ hf I1 Ip t.iop hl hI hp).2 hcar
    obtain ⟨t', ht', hio, hse⟩ := hall e hes
    exact ⟨t', ht', by rw [sameExpr_eval hse hz', he], by rw [hio]; exact htr⟩

/-- **C75.** A function that works, called with the labels of a step, never fails an
assertion about labels or sizes. -/
theorem operator_carried (T : OpTable) (hT : T ∈ opTables) (hW : T.Works) (fin : Label → Nat → Bool)
    (old diag : Sizes) (hd : T.Labels diag) (hn : (diag.map Prod.fst).Nodup)
    (cold : List OpMatrix) (hc : Fits old cold)
    (hfin : ∀ p ∈ diag, ∀ t ∈ T.targets, triangle T.builtin.sym.fields p.1 (evalLabel t.shift p.1) t.iop = true →
      ∀ rs, t.rows = some rs → ∀ r ∈ rs,
      Involved T.builtin.sym old cold p.1 (evalLabel t.shift p.1) r.i1 r.ip → fin p.1 r.k = true) :
    ∃ new, recalcOperator T fin old diag cold = some new ∧
      (new.map fun m => (m.bra, m.ket)).Nodup ∧ Fits diag new ∧
      (∀ I1 Ip, (∃ m ∈ new, m.bra = I1 ∧ m.ket = Ip) ↔
        0 < sizeSubspace diag I1 ∧ 0 < sizeSubspace diag Ip ∧
        ∃ c ∈ T.iops, Carries T.builtin.sym.fields I1 Ip c) ∧
      (∀ m ∈ new, ∃ t ∈ T.targets, m.ket = evalLabel t.shift m.bra ∧ ∃ rs, t.rows = some rs ∧
        ∀ i j, (i, j) ∈ m.terms ↔
          Involved T.builtin.sym old cold m.bra m.ket i j ∧ ∃ r ∈ rs, r.i1 = i ∧ r.ip = j) := by
  have hS := fun (p : Label × Nat) (hp : p ∈ diag) (t : OpTarget) (ht : t ∈ T.targets) =>
    recalcTarget_spec hT hW hd hc fin ht (hd p hp).1 (hd p hp).2 (hfin p hp t ht)
  let out : Label × Nat → OpTarget → List OpMatrix :=
    fun p t => (recalcTarget T fin old diag cold p.1 t).getD []
  have hO : ∀ p ∈ diag, ∀ t ∈ T.targets, recalcTarget T fin old diag cold p.1 t = some (out p t) := by
    intro p hp t ht
    obtain ⟨o, ho, _⟩ := hS p hp t ht
    simp [out, ho]
  have hS' : ∀ p ∈ diag, ∀ t ∈ T.targets, (out p t).length ≤ 1 ∧
      ((∃ m, m ∈ out p t) ↔ 0 < sizeSubspace diag p.1 ∧ 0 < sizeSubspace diag (evalLabel t.shift p.1) ∧
        triangle T.builtin.sym.fields p.1 (evalLabel t.shift p.1) t.iop = true) ∧
      ∀ m ∈ out p t, m.bra = p.1 ∧ m.ket = evalLabel t.shift p.1 ∧ m.rows = sizeSubspace diag m.bra ∧
        m.cols = sizeSubspace diag m.ket ∧
        ∃ rs, t.rows = some rs ∧ ∀ i j, (i, j) ∈ m.terms ↔
          Involved T.builtin.sym old cold m.bra m.ket i j ∧ ∃ r ∈ rs, r.i1 = i ∧ r.ip = j := by
    intro p hp t ht
    obtain ⟨o, ho, h⟩ := hS p hp t ht
    have := hO p hp t ht
    rw [ho] at this
    rw [← Option.some.inj this]
    exact h
  clear_value out
  refine ⟨diag.flatMap fun p => T.targets.flatMap (out p), ?_, ?_, ?_, ?_, ?_⟩
  · unfold recalcOperator
    rw [mapM_some diag _ (fun p => T.targets.flatMap (out p)) (by
      intro p hp
      rw [mapM_some T.targets _ (out p) (hO p hp)]
      simp [List.flatMap_def])]
    simp [List.flatMap_def]
  · rw [List.Nodup, List.pairwise_map, List.pairwise_flatMap]
    have hk : ∀ p ∈ diag, ∀ m ∈ T.targets.flatMap (out p), m.bra = p.1 := by
      intro p hp m hm
      obtain ⟨t, ht, hm⟩ := List.mem_flatMap.1 hm
      exact ((hS' p hp t ht).2.2 m hm).1
    constructor
    · intro p hp
      rw [List.pairwise_flatMap]
      constructor
      · intro t ht
        have := (hS' p hp t ht).1
        match out p t, this with
        | [], _ => exact List.Pairwise.nil
        | [x], _ => exact List.pairwise_singleton _ _
        | _ :: _ :: _, h => simp at h
      · have ha := tables_apartOk T hT hW
        simp only [apartOk, decide_eq_true_eq] at ha
        refine List.Pairwise.imp_of_mem ?_ ha
        intro s t hs ht hst m hm m' hm' he
        have e1 := ((hS' p hp s hs).2.2 m hm).2.1
        have e2 := ((hS' p hp t ht).2.2 m' hm').2.1
        exact apart_eval hst (hd p hp).1 (by rw [← e1, ← e2]; exact (Prod.mk.inj he).2)
    · rw [List.Nodup, List.pairwise_map] at hn
      refine List.Pairwise.imp_of_mem ?_ hn
      intro p q hp hq hpq m hm m' hm' he
      exact hpq (by rw [← hk p hp m hm, ← hk q hq m' hm']; exact (Prod.mk.inj he).1)
  · intro m hm
    obtain ⟨p, hp, hm⟩ := List.mem_flatMap.1 hm
    obtain ⟨t, ht, hm⟩ := List.mem_flatMap.1 hm
    obtain ⟨_, _, h1, h2, _⟩ := (hS' p hp t ht).2.2 m hm
    exact ⟨h1, h2⟩
  · intro I1 Ip
    constructor
    · rintro ⟨m, hm, rfl, rfl⟩
      obtain ⟨p, hp, hm⟩ := List.mem_flatMap.1 hm
      obtain ⟨t, ht, hm⟩ := List.mem_flatMap.1 hm
      obtain ⟨e1, e2, _⟩ := (hS' p hp t ht).2.2 m hm
      obtain ⟨s1, s2, htr⟩ := (hS' p hp t ht).2.1.1 ⟨m, hm⟩
      rw [e1, e2]
      obtain ⟨n, hn'⟩ := mem_of_size_pos s2
      exact ⟨s1, s2, (targets_spec hT hW (hd p hp).1 (hd p hp).2 (hd _ hn').1).1 ⟨t, ht, rfl, htr⟩⟩
    · rintro ⟨s1, s2, hcar⟩
      obtain ⟨n1, h1⟩ := mem_of_size_pos s1
      obtain ⟨n2, h2⟩ := mem_of_size_pos s2
      obtain ⟨t, ht, rfl, htr⟩ := (targets_spec hT hW (hd _ h1).1 (hd _ h1).2 (hd _ h2).1).2 hcar
      obtain ⟨m, hm⟩ := (hS' _ h1 t ht).2.1.2 ⟨s1, s2, htr⟩
      obtain ⟨e1, e2, _⟩ := (hS' _ h1 t ht).2.2 m hm
      exact ⟨m, List.mem_flatMap.2 ⟨_, h1, List.mem_flatMap.2 ⟨t, ht, hm⟩⟩, e1, e2⟩
  · intro m hm
    obtain ⟨p, hp, hm⟩ := List.mem_flatMap.1 hm
    obtain ⟨t, ht, hm⟩ := List.mem_flatMap.1 hm
    obtain ⟨e1, e2, _, _, h⟩ := (hS' p hp t ht).2.2 m hm
    exact ⟨t, ht, by rw [e1, e2], h⟩

/-- The labels written in the tables are the ancestors: a row never trips the assertions of
`recalc_general` (`c++/recalc.hpp:164-165`), and it leaves the added site alone. -/
theorem rows_name_ancestors (T : OpTable) (hT : T ∈ opTables) (hW : T.Works) (t : OpTarget)
    (ht : t ∈ T.targets) (rs : List OpRow) (hrs : t.rows = some rs) (r : OpRow) (hr : r ∈ rs) :
    1 ≤ r.i1 ∧ r.i1 ≤ T.builtin.sym.combs ∧ 1 ≤ r.ip ∧ r.ip ≤ T.builtin.sym.combs ∧
    (T.builtin.sym.table[r.i1 - 1]?).map Prod.snd = (T.builtin.sym.table[r.ip - 1]?).map Prod.snd ∧
    ∀ I1, Valid (types T.builtin.sym.fields) I1 → (T.builtin.symtype = "NONE" → I1 = [0]) →
      Valid (types T.builtin.sym.fields) (evalLabel t.shift I1) →
      T.builtin.sym.ancestor I1 (r.i1 - 1) = some (evalLabel ((T.labs[r.a]?).getD []) I1) ∧
      T.builtin.sym.ancestor (evalLabel t.shift I1) (r.ip - 1) =
        some (evalLabel ((T.labs[r.b]?).getD []) I1) := by
  obtain ⟨rs', hrs', h⟩ := row_spec hT hW ht
  rw [hrs] at hrs'
  cases hrs'
  obtain ⟨r1, rp, i1, ip, e1, e2, h1, h2⟩ := h r hr
  have hs := List.all_eq_true.1 (tables_siteOk T hT hW) t ht
  simp only [siteOk, hrs, Option.getD_some, List.all_eq_true] at hs
  exact ⟨i1, getElem?_lt i1 e1, ip, getElem?_lt ip e2, eq_of_beq (hs r hr), fun I1 hI hz hp => row_labels hI hz hp e1 e2 h1 h2⟩

/-! ### Functions that lose operators -/

/-- The label of the operator never fits. -/
def lostComp (f : Field) : Comp → Int → Bool
  | .plus k, c => match f.test with
    | .u1 => decide (k + c ≠ 0)
    | .su2 => decide (c ≤ k.natAbs)
    | .su2T => decide (c < k.natAbs)
    | _ => false
  | _, _ => false

def lost : List Field → LabelExpr → Label → Bool
  | _ :: _, [], _ => true
  | f :: fs, e :: es, c :: cs => lostComp f e c || lost fs es cs
  | _, _, _ => false

theorem lostComp_sound {f : Field} {e : Comp} {c x : Int} (h : lostComp f e c = true) :
    evalTest f.test x (e.eval x) c = false := by
  cases e with
  | plus k =>
    simp only [lostComp] at h
    cases ht : f.test <;> rw [ht] at h <;> simp only [decide_eq_true_eq, Bool.false_eq_true] at h
    · simp only [evalTest, u1Equality, Comp.eval, beq_eq_false_iff_ne]; omega
    · rw [Bool.eq_false_iff]
      intro hh
      simp only [evalTest, Comp.eval] at hh
      rw [su2Triangle_iff] at hh
      simp only [SpinsCouple, abs_le] at hh
      omega
    · rw [Bool.eq_false_iff]
      intro hh
      simp only [evalTest, Comp.eval] at hh
      rw [su2Triangle_iff] at hh
      simp only [SpinsCouple, abs_le] at hh
      omega
  | times k => simp [lostComp] at h
  | const k => simp [lostComp] at h

theorem lost_sound {fs : List Field} {e : LabelExpr} {c I : Label} (h : lost fs e c = true)
    (hI : Valid (types fs) I) :
    ¬ Valid (types fs) (evalLabel e I) ∨ triangle fs I (evalLabel e I) c = false := by
  induction fs generalizing e c I with
  | nil => cases e <;> simp [lost] at h
  | cons f fs ih =>
    obtain ⟨x, I, hx, hI', rfl⟩ := List.forall₂_cons_left_iff.1 hI
    match e, c, h with
    | [], _, _ =>
      left
      intro hv
      simp only [evalLabel] at hv
      cases hv
    | e :: es, c :: cs, h =>
      simp only [lost, Bool.or_eq_true] at h
      rcases h with h | h
      · right
        simp [evalLabel, triangle, lostComp_sound h]
      · rcases ih h hI' with h | h
        · left
          intro hv
          obtain ⟨y, J, hy, hJ, e⟩ := List.forall₂_cons_left_iff.1 hv
          simp only [evalLabel, List.cons.injEq] at e
          rw [e.2] at h
          exact h hJ
        · right
          simp [evalLabel, triangle, h]

theorem tables_lost : ∀ T ∈ opTables, (T.builtin.symtype, T.kind) ∈ losing →
    T.targets.all (fun t => t.rows.isSome && lost T.builtin.sym.fields t.shift t.iop) = true := by
  decide +kernel

/-- **C75 (defect).** `recalc_doublet` of DBLSU2, SPSU2LR, SPSU2T and SPU1LR, and
`recalc_triplet` of QSZTZ, SPSU2LR and SPU1LR: whatever the operator and the spectrum,
the operator is gone after the step. -/
theorem losing_lose (T : OpTable) (hT : T ∈ opTables) (hl : (T.builtin.symtype, T.kind) ∈ losing)
    (fin : Label → Nat → Bool) (old diag : Sizes) (hd : T.Labels diag) (cold : List OpMatrix) :
    recalcOperator T fin old diag cold = some [] := by
  have h := tables_lost T hT hl
  simp only [List.all_eq_true, Bool.and_eq_true] at h
  unfold recalcOperator
  rw [mapM_some diag _ (fun _ => []) (by
    intro p hp
    rw [mapM_some T.targets _ (fun _ => []) (by
      intro t ht
      obtain ⟨h1, h2⟩ := h t ht
      obtain ⟨rs, hrs⟩ := Option.isSome_iff_exists.1 h1
      simp only [recalcTarget, hrs]
      by_cases hs : haveStored diag p.1 (evalLabel t.shift p.1) = true
      · simp only [hs, if_true]
        simp only [haveStored, Bool.and_eq_true, decide_eq_true_eq] at hs
        obtain ⟨n, hn⟩ := mem_of_size_pos hs.2
        rcases lost_sound h2 (hd p hp).1 with h3 | h3
        · exact absurd (hd _ hn).1 h3
        · simp [recalcGeneral, h3]
      · simp [hs])]
    simp)]
  simp

theorem tables_unfinished : ∀ T ∈ opTables, (T.builtin.symtype, T.builtin.channels, T.kind) ∈ unfinished →
    T.targets.any (fun t => t.rows.isNone) = true := by decide +kernel

theorem mapM_none_of_mem {α β} {l : List α} {f : α → Option β} {x : α} (hx : x ∈ l) (h : f x = none) :
    l.mapM f = none := by
  induction l with
  | nil => cases hx
  | cons a l ih =>
    rw [List.mapM_cons]
    rcases List.mem_cons.1 hx with rfl | hx
    · rw [h]; rfl
    · cases f a with
      | none => rfl
      | some b => rw [ih hx]; rfl

/-- **C75 (defect).** `recalc_doublet` and `recalc_triplet` of ISO and `recalc_triplet` of
QSZ and SPSU2 with three channels: the program stops. -/
theorem unfinished_stop (T : OpTable) (hT : T ∈ opTables)
    (hu : (T.builtin.symtype, T.builtin.channels, T.kind) ∈ unfinished)
    (fin : Label → Nat → Bool) (old diag : Sizes) (hne : diag ≠ []) (cold : List OpMatrix) :
    recalcOperator T fin old diag cold = none := by
  obtain ⟨t, ht, hn⟩ := List.any_eq_true.1 (tables_unfinished T hT hu)
  obtain ⟨p, hp⟩ := List.exists_mem_of_ne_nil _ hne
  unfold recalcOperator
  rw [mapM_none_of_mem hp (by
    rw [mapM_none_of_mem ht (by simp [recalcTarget, Option.isNone_iff_eq_none.1 hn])]
    rfl)]
  rfl

/-! ### Singlet operators -/

/-- Multiplicities are positive and orbital momenta not negative. -/
def Physical (fs : List Field) (I : Label) : Prop :=
  List.Forall₂ (fun (f : Field) (x : Int) => (f.test = .su2 → 1 ≤ x) ∧ (f.test = .su2T → 0 ≤ x)) fs I

/-- A singlet label: 1 for multiplicities and parities, 0 for the rest. -/
def singletOk : List Field → Label → Bool
  | [], [] => true
  | f :: fs, c :: cs => (match f.test with
      | .none => true
      | .u1 => c == 0
      | .su2 => c == 1
      | .su2T => c == 0
      | .z2 => c == 1
      | .c3 => c == 0 && decide (f.type = .mod3)) && singletOk fs cs
  | _, _ => false

theorem builtins_singletOk : ∀ B ∈ builtins, B.symtype ≠ "SPSU2LR" →
    singletOk B.sym.fields ((invarSinglet.lookup B.symtype).getD []) = true := by decide +kernel

theorem singletOk_sound {fs : List Field} {c I : Label} (h : singletOk fs c = true)
    (hI : Valid (types fs) I) (hp : Physical fs I) : triangle fs I I c = true := by
  induction fs generalizing c I with
  | nil => cases hI; cases c <;> simp [triangle]
  | cons f fs ih =>
    obtain ⟨x, I, hx, hI', rfl⟩ := List.forall₂_cons_left_iff.1 hI
    obtain ⟨h1, h2⟩ := List.forall₂_cons.1 hp
    match c, h with
    | c :: cs, h =>
      simp only [singletOk, Bool.and_eq_true] at h
      simp only [triangle, Bool.and_eq_true]
      refine ⟨?_, ih h.2 hI' h2⟩
      have h3 := h.1
      cases ht : f.test <;> rw [ht] at h3 <;> simp only [beq_iff_eq, Bool.and_eq_true, decide_eq_true_eq] at h3
      · rfl
      · simp [evalTest, u1Equality, h3]
      · simp only [evalTest]
        have := h1.1 ht
        rw [su2Triangle_iff]; simp only [SpinsCouple, abs_le]; omega
      · simp only [evalTest]
        have := h1.2 ht
        rw [su2Triangle_iff]; simp only [SpinsCouple, abs_le]; omega
      · simp [evalTest, z2Equality, h3]
      · rw [h3.2] at hx
        simp only [Valid1] at hx
        simp only [evalTest, c3Equality, h3.1, beq_iff_eq, Int.add_zero]
        rw [Int.tmod_eq_of_lt] <;> omega

/-- **C75, singlets.** In all classes but SPSU2LR a singlet operator keeps a block for
every subspace, made of all blocks it had before. -/
theorem singlet_carried (B : Builtin) (hB : B ∈ builtins) (hl : B.symtype ≠ "SPSU2LR")
    (old diag : Sizes) (hd : ∀ p ∈ diag, Valid (types B.sym.fields) p.1 ∧ Physical B.sym.fields p.1)
    (cold : List OpMatrix) (hc : Fits old cold) :
    ∃ new, recalcSinglet B old diag cold = some new ∧
      new.map (fun m => (m.bra, m.ket)) = diag.map (fun p => (p.1, p.1)) ∧ Fits diag new ∧
      ∀ m ∈ new, 0 < sizeSubspace diag m.bra → ∀ i j, (i, j) ∈ m.terms ↔
        i = j ∧ Involved B.sym old cold m.bra m.bra i j := by
  obtain ⟨ms, hms⟩ := builtins_decompose B hB
  have hv := rowsValid_of_decomposes _ ms hms
  have key : ∀ p ∈ diag, ∃ m, recalcSinglet1 B old diag cold p.1 = some [m] ∧ m.bra = p.1 ∧ m.ket = p.1 ∧
      m.rows = sizeSubspace diag p.1 ∧ m.cols = sizeSubspace diag p.1 ∧
      (0 < sizeSubspace diag p.1 → ∀ i j, (i, j) ∈ m.terms ↔ i = j ∧ Involved B.sym old cold p.1 p.1 i j) := by
    intro p hp
    obtain ⟨hI, hph⟩ := hd p hp
    have htr := singletOk_sound (builtins_singletOk B hB hl) hI hph
    have hanc : ∀ i ∈ List.range B.sym.combs,
        B.sym.ancestor p.1 i = some ((B.sym.ancestor p.1 i).getD []) := by
      intro i hi
      rw [List.mem_range] at hi
      have hi' : i < B.sym.table.length := hi
      have hr := hv _ (List.getElem_mem hi')
      simp only [Symmetry.ancestor, List.getElem?_eq_getElem hi', Option.bind_eq_bind, Option.bind_some]
      obtain ⟨c, hcmb, _⟩ := combine_valid hI hr.1
      rw [hcmb]; rfl
    obtain ⟨d1, hd1⟩ : ∃ d, subspaceDims B.sym old p.1 = some d := ⟨_, subspaceDims_eq _ hv old _ hI⟩
    obtain ⟨ts, hts, hmem⟩ := useRows_spec (S := B.sym) (d1 := d1) (dp := d1) (cold := cold)
      (I1 := p.1) (Ip := p.1) (P := Involved B.sym old cold p.1 p.1)
      ((((List.range B.sym.combs).map fun i => (B.sym.ancestor p.1 i).getD []).zipIdx).map
        fun q => (⟨q.2 + 1, q.2 + 1, q.1, q.1, true⟩ : RowVal)) (by
        intro v hv'
        obtain ⟨⟨A, i⟩, hq, rfl⟩ := List.mem_map.1 hv'
        have hq := List.mem_zipIdx_iff_getElem?.1 hq
        simp only [List.getElem?_map, Option.map_eq_some_iff] at hq
        obtain ⟨i', hi', rfl⟩ := hq
        obtain ⟨hlt, rfl⟩ : i < B.sym.combs ∧ i' = i := by
          rw [List.getElem?_eq_some_iff] at hi'
          obtain ⟨h, e⟩ := hi'
          simp at h e
          exact ⟨h, e.symm⟩
        have hlt' : i' < B.sym.table.length := hlt
        have ha := hanc i' (List.mem_range.2 hlt)
        obtain ⟨u1, u2⟩ := useRow_core (n1 := i' + 1) (np := i' + 1) hv hc hI hI hd1 hd1 (by omega) (by omega)
          (List.getElem?_eq_getElem hlt') (List.getElem?_eq_getElem hlt') ha ha true
        exact ⟨fun h => u1 h rfl, u2⟩)
    have hm' : ∀ i j, (i, j) ∈ ts ↔ i = j ∧ Involved B.sym old cold p.1 p.1 i j := by
      intro i j
      rw [hmem]
      constructor
      · rintro ⟨h, v, hv', rfl, rfl⟩
        obtain ⟨q, hq, rfl⟩ := List.mem_map.1 hv'
        exact ⟨rfl, h⟩
      · rintro ⟨rfl, h⟩
        refine ⟨h, ?_⟩
        obtain ⟨r1, _, A, _, i1, _, e1, _⟩ := h
        obtain ⟨hlt, _⟩ := List.getElem?_eq_some_iff.1 e1
        refine ⟨⟨i, i, (B.sym.ancestor p.1 (i - 1)).getD [], (B.sym.ancestor p.1 (i - 1)).getD [], true⟩,
          List.mem_map.2 ⟨((B.sym.ancestor p.1 (i - 1)).getD [], i - 1), ?_, ?_⟩, rfl, rfl⟩
        · rw [List.mem_zipIdx_iff_getElem?]
          simp only [List.getElem?_map]
          rw [List.getElem?_range (show i - 1 < B.sym.combs from hlt)]; rfl
        · simp only [RowVal.mk.injEq, and_true]; omega
    by_cases h0 : sizeSubspace diag p.1 = 0
    · refine ⟨⟨p.1, p.1, sizeSubspace diag p.1, sizeSubspace diag p.1, []⟩, ?_, rfl, rfl, rfl, rfl, by omega⟩
      unfold recalcSinglet1
      rw [mapM_some _ _ _ hanc]
      simp [recalcGeneral, htr, hd1, h0]
    · refine ⟨⟨p.1, p.1, sizeSubspace diag p.1, sizeSubspace diag p.1, ts⟩, ?_, rfl, rfl, rfl, rfl, fun _ => hm'⟩
      unfold recalcSinglet1
      rw [mapM_some _ _ _ hanc]
      simp only [Option.bind_eq_bind, Option.bind_some]
      simp [recalcGeneral, htr, hd1, h0, hts]
  let out : Label × Nat → OpMatrix := fun p => ((recalcSinglet1 B old diag cold p.1).getD []).headD ⟨[], [], 0, 0, []⟩
  have hO : ∀ p ∈ diag, recalcSinglet1 B old diag cold p.1 = some [out p] ∧ (out p).bra = p.1 ∧ (out p).ket = p.1 ∧
      (out p).rows = sizeSubspace diag p.1 ∧ (out p).cols = sizeSubspace diag p.1 ∧
      (0 < sizeSubspace diag p.1 → ∀ i j, (i, j) ∈ (out p).terms ↔ i = j ∧ Involved B.sym old cold p.1 p.1 i j) := by
    intro p hp
    obtain ⟨m, hm, h⟩ := key p hp
    have : out p = m := by simp [out, hm]
    rw [this]
    exact ⟨hm, h⟩
  clear_value out
  refine ⟨diag.map out, ?_, ?_, ?_, ?_⟩
  · unfold recalcSinglet
    rw [mapM_some diag _ (fun p => [out p]) (fun p hp => (hO p hp).1)]
    have : ∀ l : List (Label × Nat), (l.map fun p => [out p]).flatten = l.map out := by
      intro l; induction l <;> simp_all
    simp [this]
  · rw [List.map_map]
    exact List.map_congr_left fun p hp => by simp [(hO p hp).2.1, (hO p hp).2.2.1]
  · intro m hm
    obtain ⟨p, hp, rfl⟩ := List.mem_map.1 hm
    obtain ⟨_, h1, h2, h3, h4, _⟩ := hO p hp
    rw [h1, h2]; exact ⟨h3, h4⟩
  · intro m hm h0
    obtain ⟨p, hp, rfl⟩ := List.mem_map.1 hm
    obtain ⟨_, h1, h2, h3, h4, h5⟩ := hO p hp
    rw [h1] at h0 ⊢
    exact h5 h0

/-- **C75, singlets (defect).** In the class SPSU2LR the singlet label is `(0, 1)` where it
should be `(1, 1)`: singlet operators are gone after one step. -/
theorem singlet_lost (B : Builtin) (hB : B ∈ builtins) (hl : B.symtype = "SPSU2LR") (old diag : Sizes)
    (hd : ∀ p ∈ diag, Valid (types B.sym.fields) p.1) (cold : List OpMatrix) :
    recalcSinglet B old diag cold = some [] := by
  have hL : ∀ B ∈ builtins, B.symtype = "SPSU2LR" →
      lost B.sym.fields [.plus 0, .times 1] ((invarSinglet.lookup B.symtype).getD []) = true ∧
      B.sym.fields.length = 2 := by decide +kernel
  obtain ⟨hlost, h2⟩ := hL B hB hl
  obtain ⟨ms, hms⟩ := builtins_decompose B hB
  have hv := rowsValid_of_decomposes _ ms hms
  unfold recalcSinglet
  rw [mapM_some diag _ (fun _ => []) (by
    intro p hp
    have hI := hd p hp
    have hlen : p.1.length = 2 := by rw [← List.Forall₂.length_eq hI]; simpa [types] using h2
    have hev : evalLabel [.plus 0, .times 1] p.1 = p.1 := by
      match p.1, hlen with
      | [x, y], _ => simp [evalLabel, Comp.eval]
    have htr : triangle B.sym.fields p.1 p.1 ((invarSinglet.lookup B.symtype).getD []) = false := by
      have := lost_sound hlost hI
      rw [hev] at this
      rcases this with h | h
      · exact absurd hI h
      · exact h
    have hanc : ∀ i ∈ List.range B.sym.combs,
        B.sym.ancestor p.1 i = some ((B.sym.ancestor p.1 i).getD []) := by
      intro i hi
      rw [List.mem_range] at hi
      have hi' : i < B.sym.table.length := hi
      have hr := hv _ (List.getElem_mem hi')
      simp only [Symmetry.ancestor, List.getElem?_eq_getElem hi', Option.bind_eq_bind, Option.bind_some]
      obtain ⟨c, hcmb, _⟩ := combine_valid hI hr.1
      rw [hcmb]; rfl
    unfold recalcSinglet1
    rw [mapM_some _ _ _ hanc]
    simp [recalcGeneral, htr])]
  simp

/-! ### The hypotheses are met -/

/-- Sizes of the subspaces of a first step with one channel. -/
def exOld : Sizes := [([-1, 1], 1), ([0, 2], 2), ([1, 1], 1)]

/-- Numbers of states stored in the next step. -/
def exDiag : Sizes := [([-1, 2], 3), ([0, 1], 2), ([0, 3], 1), ([1, 2], 3)]

/-- A creation operator on the first step. -/
def exCold : List OpMatrix := [⟨[0, 2], [-1, 1], 2, 1, []⟩, ⟨[1, 1], [0, 2], 1, 2, []⟩]

example : op_QS_1ch_doublet ∈ opTables ∧ op_QS_1ch_doublet.Works ∧
    op_QS_1ch_doublet.Labels exDiag ∧ (exDiag.map Prod.fst).Nodup ∧ Fits exOld exCold := by
  refine ⟨by simp [opTables], by decide +kernel, ?_, by decide +kernel, ?_⟩
  · simp only [OpTable.Labels, exDiag, List.forall_mem_cons]
    simp [op_QS_1ch_doublet, types, fields_QS, Valid, Valid1]
  · simp only [Fits, exCold, List.forall_mem_cons]
    decide

example : (recalcOperator op_QS_1ch_doublet (fun _ _ => true) exOld exDiag exCold).map
      (List.map fun m => (m.bra, m.ket, m.terms)) =
    some [([0, 1], [-1, 2], [(1, 1), (3, 2)]), ([0, 3], [-1, 2], [(2, 2)]),
      ([1, 2], [0, 3], [(2, 2)]), ([1, 2], [0, 1], [(2, 3), (4, 4)])] := by decide +kernel

end Verif.Oper
