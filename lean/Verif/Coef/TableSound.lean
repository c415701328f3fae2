import Verif.Coef.PlanSound
/-!
# The factors of a recalculation table are orthonormal
-/

namespace Verif.Coef
open Verif.Invar Verif.Symm Verif.Oper

/-- The sum over all targets `Ip` of the bra label `I1` of the products of the factors of
two rows `(i1, ip)`, `(i2, ip)` for which combination `ip` of `Ip` couples with ancestor
`B`. -/
noncomputable def pairSum (T : OpTable) (F : Nat → FVal) (I1 : Label) (i1 i2 : Nat) (B : Label) : ℝ :=
  (T.targets.map fun t =>
    if triangle T.builtin.sym.fields I1 (evalLabel t.shift I1) t.iop then
      ((t.rows.getD []).map fun r =>
        if r.i1 = i1 ∧ couplesTo T.builtin.sym (evalLabel t.shift I1) (r.ip - 1) B = true then
          ((t.rows.getD []).map fun s =>
            if s.i1 = i2 ∧ s.ip = r.ip then (F r.k).real * (F s.k).real else 0).sum
        else 0).sum
    else 0).sum

/-- Combination `i1` (from 1) couples, and the operators connect its ancestor with `B`. -/
def Reaches (T : OpTable) (I1 : Label) (i1 : Nat) (B : Label) : Prop :=
  ∃ A, 1 ≤ i1 ∧ couplesTo T.builtin.sym I1 (i1 - 1) A = true ∧ Valid (types T.builtin.sym.fields) A ∧
    (T.builtin.symtype = "NONE" → A = [0]) ∧
    ∃ t ∈ T.targets, evalLabel t.shift A = B ∧ triangle T.builtin.sym.fields A B t.iop = true

/-- The factors used for a bra label are finite and orthonormal. -/
def Orthonormal (T : OpTable) (F : Nat → FVal) (I1 : Label) : Prop :=
  ∀ i1 i2 B, Reaches T I1 i1 B → Reaches T I1 i2 B →
    pairSum T F I1 i1 i2 B = (if i1 = i2 then 1 else 0) ∧
    ∀ t ∈ T.targets, triangle T.builtin.sym.fields I1 (evalLabel t.shift I1) t.iop = true →
      ∀ r ∈ t.rows.getD [], r.i1 = i1 → couplesTo T.builtin.sym (evalLabel t.shift I1) (r.ip - 1) B = true →
        (F r.k).toReal.isSome

section
variable {T : OpTable} {P : Plan} {ds : List (Label × Label)} {I1 : Label}

/-- A combination that reaches `B`, in terms of its multiplet. -/
theorem reaches_spec (h : PlanSpec T P ds) (hI : Valid (types T.builtin.sym.fields) I1) {i1 : Nat} {B : Label}
    (hr : Reaches T I1 i1 B) : ∃ r mi m base a d c, 1 ≤ i1 ∧ T.builtin.sym.table[i1 - 1]? = some r ∧
      CombSpec T.builtin.sym.fields P r (i1 - 1) mi m base a ∧ (d, c) ∈ ds ∧
      B = dmul (types T.builtin.sym.fields) I1 (dmul (types T.builtin.sym.fields) base (dmul (types T.builtin.sym.fields) a d)) ∧
      m.Active T.builtin.sym.fields I1 ds (P.pos (i1 - 1)) (dmul (types T.builtin.sym.fields) a d) := by
  obtain ⟨A, h1, h2, hA, hz, t, ht, hB, h3⟩ := hr
  simp only [couplesTo, Bool.and_eq_true, beq_iff_eq] at h2
  obtain ⟨h2, h4⟩ := h2
  cases hr : T.builtin.sym.table[i1 - 1]? with
  | none => rw [hr] at h4; cases h4
  | some r =>
    rw [hr] at h4
    obtain ⟨mi, m, base, a, hc⟩ := h.combs _ _ hr
    obtain ⟨i, hi⟩ := List.mem_iff_getElem?.1 ht
    obtain ⟨d, hd, hd'⟩ := (disps_get h).2 i t hi
    have hdm : (d, t.iop) ∈ ds := List.mem_of_getElem? hd
    set fs := T.builtin.sym.fields with hfs
    set ts := types fs with hts
    have hl : ts.length = fs.length := by simp [hts, types]
    have lI : labelOk ts I1 = true := (labelOk_valid h.fields).2 hI
    have lb : base.length = ts.length := labelOk_length hc.baseOk
    have la : a.length = ts.length := by rw [hl]; exact hc.lenA
    have lr : r.1.length = ts.length := by rw [hc.disp]; exact dmul_length _ lb la
    have ld : d.length = ts.length := labelOk_length (h.dOk _ hdm)
    have lc : t.iop.length = fs.length := h.cLen _ hdm
    have lIl : I1.length = ts.length := labelOk_length lI
    have eA : A = dmul ts I1 r.1 := by
      simp only [Symmetry.ancestor, hr, Option.bind_eq_bind, Option.bind_some] at h2
      rw [combine_eq_dmul h.fields hI (by rw [lr, hl])] at h2
      exact (Option.some.inj h2).symm
    have eB : B = dmul ts A d := by
      rw [← hB]
      refine evalLabel_eq_dmul hd' ?_ ?_
      · rw [← hl, eA]; exact dmul_length _ lIl lr
      · intro hz' y hy
        rw [hz (by simpa using hz')] at hy
        simpa using hy
    refine ⟨r, mi, m, base, a, d, t.iop, h1, rfl, hc, hdm, ?_, a, d, t.iop, hc.ins, hdm, rfl, ?_, ?_⟩
    · rw [eB, eA, hc.disp, dmul_assoc, dmul_assoc]
    · have e0 : dmul ts I1 (done ts) = I1 := dmul_done ts lIl
      have h4' : triangle fs (dmul ts I1 (done ts)) (dmul ts I1 r.1) r.2 = true := by rw [e0, ← eA]; exact h4
      rw [triangle_dmul h.fields lI (by rw [done_length, hl]) (by rw [lr, hl]) hc.len2] at h4'
      simp only [Bool.and_eq_true] at h4'
      have h5 := h4'.1
      rw [spinTri_part, hc.disp, spinPart_dmul hc.baseSpin, hc.site] at h5
      rw [spinTri_part, ← h5]
      congr 1
      rw [← hc.site]
      exact spinPart_idem _ _
    · have h3' : triangle fs (dmul ts I1 r.1) (dmul ts I1 (dmul ts r.1 d)) t.iop = true := by
        rw [← dmul_assoc, ← eA, ← eB]; exact h3
      rw [triangle_dmul h.fields lI (by rw [lr, hl]) (by rw [dmul_length ts lr ld, hl]) lc] at h3'
      simp only [Bool.and_eq_true] at h3'
      have h5 := h3'.1
      rw [spinTri_part, hc.disp, dmul_assoc, spinPart_dmul hc.baseSpin, spinPart_dmul hc.baseSpin] at h5
      rw [spinTri_part, ← h5]

/-- Which rows of a target lead to `B`, in terms of the multiplet. -/
theorem couplesTo_spec (h : PlanSpec T P ds) (hI : Valid (types T.builtin.sym.fields) I1)
    (hz : T.builtin.symtype = "NONE" → I1 = [0]) {i : Nat} {t : OpTarget} (ht : T.targets[i]? = some t) {d : Label}
    (hd : ds[i]? = some (d, t.iop)) (hd' : dispOf (T.builtin.symtype == "NONE") T.builtin.sym.fields t.shift = some d)
    {ip : Nat} {r : Label × Label} (hr : T.builtin.sym.table[ip]? = some r) {mi : Nat} {m : MType} {base a D : Label}
    (hc : CombSpec T.builtin.sym.fields P r ip mi m base a) (hD : D.length = T.builtin.sym.fields.length) :
    couplesTo T.builtin.sym (evalLabel t.shift I1) ip
        (dmul (types T.builtin.sym.fields) I1 (dmul (types T.builtin.sym.fields) base D)) = true ↔
      dmul (types T.builtin.sym.fields) d a = D ∧ spinTri T.builtin.sym.fields I1 d D m.qn = true := by
  have hdm : (d, t.iop) ∈ ds := List.mem_of_getElem? hd
  set fs := T.builtin.sym.fields with hfs
  set ts := types fs with hts
  have hl : ts.length = fs.length := by simp [hts, types]
  have lI : labelOk ts I1 = true := (labelOk_valid h.fields).2 hI
  have lb : base.length = ts.length := labelOk_length hc.baseOk
  have la : a.length = ts.length := by rw [hl]; exact hc.lenA
  have lr : r.1.length = ts.length := by rw [hc.disp]; exact dmul_length _ lb la
  have ld : d.length = ts.length := labelOk_length (h.dOk _ hdm)
  have lIl : I1.length = ts.length := labelOk_length lI
  have eP : evalLabel t.shift I1 = dmul ts I1 d := by
    refine evalLabel_eq_dmul hd' (by rw [lIl, hl]) ?_
    intro hz' y hy
    rw [hz (by simpa using hz')] at hy
    simpa using hy
  have lP : labelOk ts (dmul ts I1 d) = true := labelOk_dmul lI (h.dOk _ hdm)
  have eA : T.builtin.sym.ancestor (dmul ts I1 d) ip = some (dmul ts I1 (dmul ts base (dmul ts d a))) := by
    simp only [Symmetry.ancestor, hr, Option.bind_eq_bind, Option.bind_some]
    rw [combine_eq_dmul h.fields ((labelOk_valid h.fields).1 lP) (by rw [lr, hl]), hc.disp]
    congr 1
    show dmul ts (dmul ts I1 d) (dmul ts base a) = _
    rw [dmul_assoc]
    congr 1
    rw [← dmul_assoc, dmul_comm ts d base, dmul_assoc]
  have lbD : (dmul ts base D).length = ts.length := dmul_length _ lb (by rw [hD, hl])
  have ldA : (dmul ts d a).length = ts.length := dmul_length _ ld la
  simp only [couplesTo, hr, Bool.and_eq_true, beq_iff_eq]
  rw [eP, eA, Option.some.injEq]
  have e1 : dmul ts I1 (dmul ts base (dmul ts d a)) = dmul ts I1 (dmul ts base D) ↔ dmul ts d a = D := by
    constructor
    · intro e
      exact dmul_cancel hc.baseOk ldA (by rw [hD, hl]) (dmul_cancel lI (dmul_length _ lb ldA) lbD e)
    · rintro rfl; rfl
  rw [e1]
  refine and_congr_right ?_
  rintro rfl
  rw [triangle_dmul h.fields lI (by rw [ld, hl]) (by rw [lbD, hl]) hc.len2]
  have e2 : otherTri fs d (dmul ts base (dmul ts d a)) r.2 = true := by
    have e3 : dmul ts base (dmul ts d a) = dmul ts d r.1 := by
      rw [hc.disp, ← dmul_assoc, dmul_comm ts base d, dmul_assoc]
    have e4 : d = dmul ts d (done ts) := (dmul_done ts ld).symm
    rw [e3]
    conv_lhs => rw [show otherTri fs d (dmul ts d r.1) r.2 = otherTri fs (dmul ts d (done ts)) (dmul ts d r.1) r.2 by rw [← e4]]
    rw [otherTri_dmul h.fields (h.dOk _ hdm) (by rw [done_length, hl]) (by rw [lr, hl])]
    exact hc.other
  rw [e2, Bool.and_true, spinTri_part, spinPart_dmul hc.baseSpin, hc.site,
    spinTri_part (a := d) (b := dmul ts d a) (c := m.qn), ← hc.site, spinPart_idem]

theorem target_spec (h : PlanSpec T P ds) (hI : Valid (types T.builtin.sym.fields) I1)
    (hz : T.builtin.symtype = "NONE" → I1 = [0]) {i : Nat} {t : OpTarget} {d : Label}
    (hd : ds[i]? = some (d, t.iop)) (hd' : dispOf (T.builtin.symtype == "NONE") T.builtin.sym.fields t.shift = some d) :
    triangle T.builtin.sym.fields I1 (evalLabel t.shift I1) t.iop =
      spinTri T.builtin.sym.fields I1 (done (types T.builtin.sym.fields)) d t.iop := by
  have hdm : (d, t.iop) ∈ ds := List.mem_of_getElem? hd
  set fs := T.builtin.sym.fields with hfs
  set ts := types fs with hts
  have hl : ts.length = fs.length := by simp [hts, types]
  have lI : labelOk ts I1 = true := (labelOk_valid h.fields).2 hI
  have ld : d.length = ts.length := labelOk_length (h.dOk _ hdm)
  have lIl : I1.length = ts.length := labelOk_length lI
  have eP : evalLabel t.shift I1 = dmul ts I1 d := by
    refine evalLabel_eq_dmul hd' (by rw [lIl, hl]) ?_
    intro hz' y hy
    rw [hz (by simpa using hz')] at hy
    simpa using hy
  have e0 : dmul ts I1 (done ts) = I1 := dmul_done ts lIl
  calc triangle fs I1 (evalLabel t.shift I1) t.iop
      = triangle fs (dmul ts I1 (done ts)) (dmul ts I1 d) t.iop := by rw [e0, eP]
    _ = _ := by
      rw [triangle_dmul h.fields lI (by rw [done_length, hl]) (by rw [ld, hl]) (h.cLen _ hdm), h.dOther _ hdm, Bool.and_true]

theorem orthonormal_of_good (h : PlanSpec T P ds) (hI : Valid (types T.builtin.sym.fields) I1)
    (hz : T.builtin.symtype = "NONE" → I1 = [0]) {F : Nat → FVal}
    (hg : ∀ m ∈ P.mts, m.Good T.builtin.sym.fields F I1 ds) : Orthonormal T F I1 := by
  intro i1 i2 B h1 h2
  obtain ⟨r1, mi, m, base, a, d1, c1, hi1, hr1, hc1, hd1, rfl, hact1⟩ := reaches_spec h hI h1
  have hlenD : (dmul (types T.builtin.sym.fields) a d1).length = T.builtin.sym.fields.length := by
    have hl : (types T.builtin.sym.fields).length = T.builtin.sym.fields.length := by simp [types]
    rw [dmul_length _ (by rw [hc1.lenA, hl]) (labelOk_length (h.dOk _ hd1)), hl]
  generalize hDD : dmul (types T.builtin.sym.fields) a d1 = D at *
  have hmm := List.mem_of_getElem? hc1.kind
  have hn1 : i1 - 1 < T.builtin.sym.table.length := (List.getElem?_eq_some_iff.1 hr1).1
  -- rows of a target in this multiplet
  have key : ∀ (i : Nat) (t : OpTarget), T.targets[i]? = some t → ∃ d rs l, ds[i]? = some (d, t.iop) ∧
      dispOf (T.builtin.symtype == "NONE") T.builtin.sym.fields t.shift = some d ∧ t.rows = some rs ∧ m.rows[i]? = some l ∧
      (∀ r ∈ rs, P.grp (r.i1 - 1) = P.grp (r.ip - 1) ∧ 1 ≤ r.i1 ∧ 1 ≤ r.ip ∧ r.i1 - 1 < T.builtin.sym.table.length ∧
        r.ip - 1 < T.builtin.sym.table.length) ∧
      (∀ G : Nat × (Nat × Nat × Nat) → ℝ, (∀ a x, a ≠ P.grp (i1 - 1) → G (a, x) = 0) →
        (rs.map fun r => G (rowLoc P r)).sum = (l.map fun x => G (P.grp (i1 - 1), x)).sum) ∧
      ∀ r ∈ rs, P.grp (r.i1 - 1) = P.grp (i1 - 1) → (P.pos (r.i1 - 1), P.pos (r.ip - 1), r.k) ∈ l := by
    intro i t ht
    obtain ⟨d, e1, e2⟩ := (disps_get h).2 i t ht
    obtain ⟨rs, e3, e4, e5⟩ := rows_perm (h.targets i t ht) h.bounds
    have hlt : i < m.rows.length := by
      rw [h.mlen m hmm]; exact (List.getElem?_eq_some_iff.1 ht).1
    have hra : P.rowsAt i mi = m.rows[i] := by
      simp [Plan.rowsAt, hc1.kind, List.getElem?_eq_getElem hlt]
    refine ⟨d, rs, m.rows[i], e1, e2, e3, List.getElem?_eq_getElem hlt, ?_, ?_, ?_⟩
    · intro r hr
      have := e4 r hr
      simp only [rowOk, Bool.and_eq_true, Nat.ble_eq, Nat.beq_eq, Nat.blt_eq] at this
      obtain ⟨q1, q2, q3, q4, q5, _⟩ := this
      exact ⟨q5, q1, q3, by omega, by omega⟩
    · intro G hG
      have := (e5.map G).sum_eq
      rw [List.map_map] at this
      have h' := sum_groups P.inst (P.rowsAt i) G 0 (P.grp (i1 - 1)) mi base hc1.inst (by simpa using hG)
      rw [h', hra] at this
      simpa [Function.comp_def] using this
    · intro r hr hgr
      have : rowLoc P r ∈ rs.map (rowLoc P) := List.mem_map_of_mem hr
      rw [e5.mem_iff] at this
      obtain ⟨p, hp, hx⟩ := List.mem_flatMap.1 this
      obtain ⟨x, hx, hx'⟩ := List.mem_map.1 hx
      simp only [rowLoc, Prod.mk.injEq] at hx'
      obtain ⟨q1, q2⟩ := p
      rw [List.mk_mem_zipIdx_iff_getElem?] at hp
      have hq := hx'.1
      dsimp only at hq
      rw [hq, hgr, hc1.inst] at hp
      cases hp
      dsimp only at hx
      rw [hra] at hx
      rw [← hx'.2]; exact hx
  -- rows in terms of positions
  have loc_eq : ∀ {j k : Nat}, 1 ≤ j → 1 ≤ k → j - 1 < T.builtin.sym.table.length → k - 1 < T.builtin.sym.table.length →
      (j = k ↔ P.grp (j - 1) = P.grp (k - 1) ∧ P.pos (j - 1) = P.pos (k - 1)) := by
    intro j k hj hk lj lk
    constructor
    · rintro rfl; exact ⟨rfl, rfl⟩
    · rintro ⟨q1, q2⟩
      have : P.code (j - 1) = P.code (k - 1) := by
        simp only [Plan.grp, Plan.pos] at q1 q2; omega
      have := h.inj _ _ lj lk this
      omega
  -- the combination a row leads to
  have comb : ∀ {j : Nat}, j < T.builtin.sym.table.length → P.grp j = P.grp (i1 - 1) → ∃ r b,
      T.builtin.sym.table[j]? = some r ∧ CombSpec T.builtin.sym.fields P r j mi m base b ∧ m.ins[P.pos j]? = some b := by
    intro j hj hg
    obtain ⟨mi', m', base', b, hc⟩ := h.combs j _ (List.getElem?_eq_getElem hj)
    have e1 := hc.inst
    rw [hg, hc1.inst] at e1
    cases e1
    have e2 := hc.kind
    rw [hc1.kind] at e2
    cases e2
    exact ⟨_, b, List.getElem?_eq_getElem hj, hc, hc.ins⟩
  have row : ∀ {i : Nat} {t : OpTarget} {d : Label}, T.targets[i]? = some t → ds[i]? = some (d, t.iop) →
      dispOf (T.builtin.symtype == "NONE") T.builtin.sym.fields t.shift = some d → ∀ {j : Nat},
      j < T.builtin.sym.table.length → P.grp j = P.grp (i1 - 1) →
      (couplesTo T.builtin.sym (evalLabel t.shift I1) j
        (dmul (types T.builtin.sym.fields) I1 (dmul (types T.builtin.sym.fields) base D)) = true ↔
      dmul (types T.builtin.sym.fields) d ((m.ins[P.pos j]?).getD []) = D ∧
        spinTri T.builtin.sym.fields I1 d D m.qn = true) := by
    intro i t d ht e1 e2 j hj hg
    obtain ⟨r, b, f1, f2, f3⟩ := comb hj hg
    rw [f3, Option.getD_some]
    exact couplesTo_spec h hI hz ht e1 e2 f1 f2 hlenD
  constructor
  · -- the sum
    by_cases hg2 : P.grp (i2 - 1) = P.grp (i1 - 1)
    · obtain ⟨r2, mi2, m2, base2, a2, d2, c2, hi2, hr2, hc2, hd2, hB2, hact2⟩ := reaches_spec h hI h2
      have hn2 : i2 - 1 < T.builtin.sym.table.length := (List.getElem?_eq_some_iff.1 hr2).1
      have e1 := hc2.inst
      rw [hg2, hc1.inst] at e1
      cases e1
      have e2 := hc2.kind
      rw [hc1.kind] at e2
      cases e2
      have hD2 : dmul (types T.builtin.sym.fields) a2 d2 = D := by
        have hl : (types T.builtin.sym.fields).length = T.builtin.sym.fields.length := by simp [types]
        have lb : base.length = (types T.builtin.sym.fields).length := labelOk_length hc1.baseOk
        have l2 : (dmul (types T.builtin.sym.fields) a2 d2).length = (types T.builtin.sym.fields).length :=
          dmul_length _ (by rw [hc2.lenA, hl]) (labelOk_length (h.dOk _ hd2))
        have lD : D.length = (types T.builtin.sym.fields).length := by rw [hlenD, hl]
        exact (dmul_cancel hc1.baseOk lD l2 (dmul_cancel ((labelOk_valid h.fields).2 hI)
          (dmul_length _ lb lD) (dmul_length _ lb l2) hB2)).symm
      rw [hD2] at hact2
      have hgood := (hg m hmm _ _ _ hact1 hact2).1
      have hij : (P.pos (i1 - 1) = P.pos (i2 - 1)) ↔ i1 = i2 := by
        rw [loc_eq hi1 hi2 hn1 hn2]
        exact ⟨fun e => ⟨hg2.symm, e⟩, fun e => e.2⟩
      rw [if_congr hij rfl rfl] at hgood
      rw [← hgood]
      unfold pairSum MType.pairSum
      congr 1
      have hlen : (m.rows.zip ds).length = T.targets.length := by
        rw [List.length_zip, h.mlen m hmm, (disps_get h).1, Nat.min_self]
      refine List.ext_getElem (by simp [hlen]) ?_
      intro i g1 g2
      have hti : i < T.targets.length := by simpa using g1
      obtain ⟨d, rs, l, k1, k2, k3, k4, k5, k6, _⟩ := key i _ (List.getElem?_eq_getElem hti)
      have ht := List.getElem?_eq_getElem hti
      have hzip : (m.rows.zip ds)[i]'(by rw [hlen]; exact hti) = (l, (d, T.targets[i].iop)) := by
        have : (m.rows.zip ds)[i]? = some (l, (d, T.targets[i].iop)) := by
          rw [List.getElem?_zip_eq_some]; exact ⟨k4, k1⟩
        rw [List.getElem?_eq_getElem (by rw [hlen]; exact hti)] at this
        exact Option.some.inj this
      simp only [List.getElem_map, hzip]
      rw [target_spec h hI hz k1 k2, k3, Option.getD_some]
      congr 1
      let inner (q k : Nat) : ℝ := (l.map fun y => if y.1 = P.pos (i2 - 1) ∧ y.2.1 = q then (F k).real * (F y.2.2).real else 0).sum
      let G : Nat × (Nat × Nat × Nat) → ℝ := fun p => if p.1 = P.grp (i1 - 1) ∧ p.2.1 = P.pos (i1 - 1) ∧
        dmul (types T.builtin.sym.fields) d ((m.ins[p.2.2.1]?).getD []) = D ∧ spinTri T.builtin.sym.fields I1 d D m.qn = true
        then inner p.2.2.1 p.2.2.2 else 0
      have hG := k6 G (fun a x ha => if_neg (fun e => ha e.1))
      have f1 : (l.map fun x => G (P.grp (i1 - 1), x)).sum = (l.map fun x => if x.1 = P.pos (i1 - 1) ∧
          dmul (types T.builtin.sym.fields) d ((m.ins[x.2.1]?).getD []) = D ∧
          spinTri T.builtin.sym.fields I1 d D m.qn = true then
          (l.map fun y => if y.1 = P.pos (i2 - 1) ∧ y.2.1 = x.2.1 then (F x.2.2).real * (F y.2.2).real else 0).sum else 0).sum := by
        congr 1
        refine List.map_congr_left fun x _ => ?_
        show (if _ then _ else _) = _
        exact if_congr (by simp only [true_and]) rfl rfl
      rw [← f1, ← hG]
      congr 1
      refine List.map_congr_left fun r hr => ?_
      obtain ⟨q1, q2, q3, q4, q5⟩ := k5 r hr
      have e1 : r.i1 = i1 ↔ P.grp (r.i1 - 1) = P.grp (i1 - 1) ∧ P.pos (r.i1 - 1) = P.pos (i1 - 1) := loc_eq q2 hi1 q4 hn1
      show _ = if (P.grp (r.i1 - 1) = P.grp (i1 - 1) ∧ P.pos (r.i1 - 1) = P.pos (i1 - 1) ∧ _ ∧ _) then
        inner (P.pos (r.ip - 1)) r.k else 0
      by_cases hgr : P.grp (r.i1 - 1) = P.grp (i1 - 1)
      · refine if_congr (by rw [e1, row ht k1 k2 q5 (q1 ▸ hgr), and_assoc]; rfl) ?_ rfl
        have hin := k6 (fun p => if p.1 = P.grp (i1 - 1) ∧ p.2.1 = P.pos (i2 - 1) ∧ p.2.2.1 = P.pos (r.ip - 1) then
          (F r.k).real * (F p.2.2.2).real else 0) (fun a x ha => if_neg (fun e => ha e.1))
        simp only [true_and] at hin
        show _ = (l.map _).sum
        rw [← hin]
        congr 1
        refine List.map_congr_left fun s hs => ?_
        obtain ⟨p1, p2, p3, p4, p5⟩ := k5 s hs
        refine if_congr ?_ rfl rfl
        rw [loc_eq p2 hi2 p4 hn2, loc_eq p3 q3 p5 q5]
        simp only [rowLoc]
        rw [← p1, ← q1, hgr, hg2]
        tauto
      · rw [if_neg (fun e => hgr (e1.1 e.1).1)]
        exact (if_neg (fun e => hgr e.1)).symm
    · have hne : i1 ≠ i2 := by rintro rfl; exact hg2 rfl
      rw [if_neg hne]
      unfold pairSum
      refine List.sum_eq_zero fun y hy => ?_
      obtain ⟨t, ht, rfl⟩ := List.mem_map.1 hy
      obtain ⟨i, hi⟩ := List.mem_iff_getElem?.1 ht
      obtain ⟨d, rs, l, k1, k2, k3, k4, k5, k6, _⟩ := key i _ hi
      split
      · refine List.sum_eq_zero fun y hy => ?_
        obtain ⟨r, hr, rfl⟩ := List.mem_map.1 hy
        split
        · refine List.sum_eq_zero fun y hy => ?_
          obtain ⟨s, hs, rfl⟩ := List.mem_map.1 hy
          rename_i hcond
          refine if_neg ?_
          rintro ⟨u1, u2⟩
          rw [k3, Option.getD_some] at hr hs
          have w1 := (k5 r hr).1
          have w2 := (k5 s hs).1
          rw [u1, u2] at w2
          rw [hcond.1] at w1
          exact hg2 (w2.trans w1.symm)
        · rfl
      · rfl
  · intro t ht htri r hr hri hcp
    obtain ⟨i, hi⟩ := List.mem_iff_getElem?.1 ht
    obtain ⟨d, rs, l, k1, k2, k3, k4, k5, k6, k7⟩ := key i _ hi
    rw [k3, Option.getD_some] at hr
    obtain ⟨q1, q2, q3, q4, q5⟩ := k5 r hr
    have hgr : P.grp (r.i1 - 1) = P.grp (i1 - 1) := by rw [hri]
    have hcp' := (row hi k1 k2 q5 (q1 ▸ hgr)).1 hcp
    rw [target_spec h hI hz k1 k2] at htri
    refine (hg m hmm _ _ _ hact1 hact1).2 l d t.iop ?_ htri _ (k7 r hr hgr) ?_ hcp'.1 hcp'.2
    · refine List.mem_of_getElem? (i := i) ?_
      rw [List.getElem?_zip_eq_some]; exact ⟨k4, k1⟩
    · show P.pos (r.i1 - 1) = _
      rw [hri]

end
end Verif.Coef
