import Verif.Spin.Lemmas
/-!
# C51, C52: spin moments and degeneracy factors
-/

namespace Verif.Spin
open Verif.Invar (Label)
open Verif.Symm Spec

/-! ## C51 -/

private theorem entries_ok : ∀ e ∈ tdEntries, ∃ f, fieldOf e.fields e.qn = some f ∧ Suits f e.moment ∧
    ∀ x, observable e.column (decide (f.mult ≠ .one)) x = e.prefactor * onComp e.moment x := by
  intro e he
  simp only [tdEntries, List.mem_cons, List.not_mem_nil, or_false] at he
  repeat' (first | rcases he with rfl | he)
  all_goals
    refine ⟨_, rfl, ?_, fun x => ?_⟩
    · first
      | exact Or.inl ⟨rfl, rfl⟩
      | exact Or.inr (Or.inl ⟨rfl, rfl⟩)
      | exact Or.inr (Or.inr ⟨rfl, Or.inl rfl⟩)
      | exact Or.inr (Or.inr ⟨rfl, Or.inr (Or.inl rfl)⟩)
      | exact Or.inr (Or.inr ⟨rfl, Or.inr (Or.inr (Or.inl rfl))⟩)
      | exact Or.inr (Or.inr ⟨rfl, Or.inr (Or.inr (Or.inr rfl))⟩)
    · simp [observable, onComp]
      try ring

/-- **C51**: every column of the thermodynamic tables averages the quantum number its
name announces. -/
theorem td_subjects : ∀ e ∈ tdEntries, e.qn ∈ subjects e.column := by decide

/-- C51.  Every column of every class's thermodynamic table is the thermal
average over all individual states of all multiplets: the contribution of a
multiplet is the sum over its components of the observable's value (`m^2`,
`((SSZ-1)/2)^2`, `Q`, `(2 Iz)^2`, …), every component with the multiplet's
Boltzmann weight.  Any list of multiplets, any weights. -/
theorem td_moments (e : TDEntry) (he : e ∈ tdEntries) (diag : List (Label × ℚ))
    (hd : ∀ p ∈ diag, p.1.length = e.fields.length ∧ DimsOk e.fields p.1) :
    ∃ f, fieldOf e.fields e.qn = some f ∧
      tdValue e diag = some (average e.fields e.column e.qn (decide (f.mult ≠ .one)) diag) := by
  obtain ⟨f, hf, hs, hobs⟩ := entries_ok e he
  refine ⟨f, hf, ?_⟩
  have key : ∀ p ∈ diag, (do let x ← get e.fields p.1 e.qn
                             pure ((mult e.fields p.1 : ℚ) * p.2 * e.moment.weight x) : Option ℚ)
      = some (p.2 * ((states e.fields p.1).map fun s => onComp e.moment ((get e.fields s e.qn).getD 0)).sum) := by
    intro p hp
    obtain ⟨x, hx, hsum⟩ := states_sum e.fields p.1 (hd p hp).1 (hd p hp).2 e.qn f hf e.moment hs
    rw [hx, hsum]
    simp only [Option.bind_eq_bind, Option.bind_some, Option.pure_def, Option.some.injEq]
    ring
  have hm := mapM_some diag _ _ key
  simp only [tdValue]
  have hm' : (diag.mapM fun x => match x with
      | (I, boltz) => do
        let x ← get e.fields I e.qn
        pure ((mult e.fields I : ℚ) * boltz * e.moment.weight x))
      = some (diag.map fun p => p.2 * ((states e.fields p.1).map fun s => onComp e.moment ((get e.fields s e.qn).getD 0)).sum) := hm
  rw [hm']
  simp only [Option.bind_eq_bind, Option.bind_some, Option.pure_def, Option.some.injEq, average]
  congr 1
  · rw [mul_comm, ← sum_mul_right']
    refine congrArg List.sum (List.map_congr_left fun p _ => ?_)
    have e1 : ∀ l : List (List ℚ), (l.map fun s => p.2 * observable e.column (decide (f.mult ≠ .one)) ((get e.fields s e.qn).getD 0)).sum
        = p.2 * (l.map fun s => onComp e.moment ((get e.fields s e.qn).getD 0)).sum * e.prefactor := by
      intro l
      induction l with
      | nil => simp
      | cons a l ih => simp only [List.map_cons, List.sum_cons]; rw [ih, hobs]; ring
    rw [e1]
  · refine congrArg List.sum (List.map_congr_left fun p hp => ?_)
    rw [states_count _ _ (hd p hp).2]

/-- The weight of a spin multiplet of multiplicity `n` is `S(S+1)/3`, the mean
of `m^2` over its components. -/
theorem spinSq_mean (n : Nat) : ((List.range n).map fun k : Nat => ((k : ℚ) - ((n : ℚ) - 1) / 2) ^ 2).sum
    = n * Moment.spinSq.weight n := by
  rw [sum_range_sq]; simp only [Moment.weight]; push_cast; ring

-- two multiplets of class QS: a triplet and a doublet
example : tdValue ⟨fields_QS, "<Sz^2>", "SS", .spinSq, 1⟩ [([0, 3], 1), ([1, 2], 1)] = some (1 / 2) := by
  decide +kernel
example : (⟨fields_QS, "<Sz^2>", "SS", .spinSq, 1⟩ : TDEntry) ∈ tdEntries := by simp [tdEntries]
example : DimsOk fields_QS [0, 3] := ⟨by simp [DimOk, evalMult], by simp [DimOk, evalMult], trivial⟩
-- -1,0,1 and ±1/2: (1+0+1+1/4+1/4)/5
example : ((2 : ℚ) + 1 / 2) / 5 = 1 / 2 := by norm_num
example : states fields_QS [0, 3] = [[0, -1], [0, 0], [0, 1]] := by
  simp [states, comps, fields_QS, List.range_succ]; norm_num

/-! ## C52 -/

private theorem len1 (I : Label) (h : I.length = 1) : ∃ a, I = [a] := by
  match I, h with | [a], _ => exact ⟨a, rfl⟩
private theorem len2 (I : Label) (h : I.length = 2) : ∃ a b, I = [a, b] := by
  match I, h with | [a, b], _ => exact ⟨a, b, rfl⟩
private theorem len3 (I : Label) (h : I.length = 3) : ∃ a b c, I = [a, b, c] := by
  match I, h with | [a, b, c], _ => exact ⟨a, b, c, rfl⟩
private theorem finals_u1 (b c : Int) : finals .u1 b c = [b + c] := rfl
private theorem finals_z2 (b c : Int) : finals .z2 b c = [b * c] := rfl
private theorem finals_c3 (b c : Int) : finals .c3 b c = [(b + c).tmod 3] := rfl
private theorem mem_su2_one (a b : Int) (hb : 0 < b) : a ∈ finals .su2 b 1 ↔ a = b := by
  rw [mem_su2_iff]; omega
private theorem mem_su2T_zero (a b : Int) (hb : 0 ≤ b) : a ∈ finals .su2T b 0 ↔ a = b := by
  rw [mem_su2T_iff _ _ _ hb (by decide)]; omega

private theorem fl1 (f : Field) (a x : Int) (I1 : Label) (h : I1 ∈ finalLabels [f] [a] [x]) :
    ∃ a1, a1 ∈ finals f.test a x ∧ I1 = [a1] := by
  simp only [finalLabels, List.mem_flatMap, List.mem_map, List.mem_singleton] at h
  obtain ⟨a1, h1, _, rfl, rfl⟩ := h
  exact ⟨a1, h1, rfl⟩
private theorem fl2 (f g : Field) (a b x y : Int) (I1 : Label) (h : I1 ∈ finalLabels [f, g] [a, b] [x, y]) :
    ∃ a1 b1, a1 ∈ finals f.test a x ∧ b1 ∈ finals g.test b y ∧ I1 = [a1, b1] := by
  simp only [finalLabels, List.mem_flatMap, List.mem_map, List.mem_singleton] at h
  obtain ⟨a1, h1, _, ⟨b1, h2, _, rfl, rfl⟩, rfl⟩ := h
  exact ⟨a1, b1, h1, h2, rfl⟩
private theorem fl3 (f g k : Field) (a b c x y z : Int) (I1 : Label)
    (h : I1 ∈ finalLabels [f, g, k] [a, b, c] [x, y, z]) :
    ∃ a1 b1 c1, a1 ∈ finals f.test a x ∧ b1 ∈ finals g.test b y ∧ c1 ∈ finals k.test c z ∧ I1 = [a1, b1, c1] := by
  simp only [finalLabels, List.mem_flatMap, List.mem_map, List.mem_singleton] at h
  obtain ⟨a1, h1, _, ⟨b1, h2, _, ⟨c1, h3, _, rfl, rfl⟩, rfl⟩, rfl⟩ := h
  exact ⟨a1, b1, c1, h1, h2, h3, rfl⟩
private theorem c3_zero (c : Int) (h : c = 0 ∨ c = 1 ∨ c = 2) : (c + 0).tmod 3 = c := by
  rcases h with rfl | rfl | rfl <;> decide

private theorem ex_sdQS : Exact fields_QS (sdQS fields_QS) [1, 2] := by
  intro Ip I1 hl ha hm
  obtain ⟨a, b, rfl⟩ := len2 Ip hl
  obtain ⟨a1, b1, ha', hb, rfl⟩ := fl2 _ _ _ _ _ _ _ hm
  obtain rfl : a1 = _ := List.mem_singleton.mp ha'
  simp [sdQS, checkDiff, checkAbsDiff, get, fields_QS, check, doubletChecked_eq _ _ hb, exactFactor, mult, evalMult]

private theorem ex_dsQS : Exact fields_QS (dsQS fields_QS) [0, 3] := by
  intro Ip I1 hl ha hm
  obtain ⟨a, b, rfl⟩ := len2 Ip hl
  obtain ⟨a1, b1, ha', hb, rfl⟩ := fl2 _ _ _ _ _ _ _ hm
  obtain rfl : a1 = _ := List.mem_singleton.mp ha'
  simp [dsQS, checkDiff, checkAbsDiff, get, fields_QS, check, triplet_eq _ _ hb, exactFactor, mult, evalMult]

private theorem ex_sdQSLR (p : Int) : Exact fields_QSLR (sdQSLR fields_QSLR) [1, 2, p] := by
  intro Ip I1 hl ha hm
  obtain ⟨a, b, c, rfl⟩ := len3 Ip hl
  obtain ⟨a1, b1, c1, ha', hb, hc, rfl⟩ := fl3 _ _ _ _ _ _ _ _ _ _ hm
  obtain rfl : a1 = _ := List.mem_singleton.mp ha'
  obtain rfl : c1 = _ := List.mem_singleton.mp hc
  simp [sdQSLR, checkDiff, checkAbsDiff, get, fields_QSLR, check, doublet_eq _ _ hb, exactFactor, mult, evalMult]

private theorem ex_dsQSLR (p : Int) : Exact fields_QSLR (dsQS fields_QSLR) [0, 3, p] := by
  intro Ip I1 hl ha hm
  obtain ⟨a, b, c, rfl⟩ := len3 Ip hl
  obtain ⟨a1, b1, c1, ha', hb, hc, rfl⟩ := fl3 _ _ _ _ _ _ _ _ _ _ hm
  obtain rfl : a1 = _ := List.mem_singleton.mp ha'
  obtain rfl : c1 = _ := List.mem_singleton.mp hc
  simp [dsQS, checkDiff, checkAbsDiff, get, fields_QSLR, check, triplet_eq _ _ hb, exactFactor, mult, evalMult]

private theorem ex_sdQSTZ (m : Int) : Exact fields_QSTZ (sdQS fields_QSTZ) [1, 2, m] := by
  intro Ip I1 hl ha hm
  obtain ⟨a, b, c, rfl⟩ := len3 Ip hl
  obtain ⟨a1, b1, c1, ha', hb, hc, rfl⟩ := fl3 _ _ _ _ _ _ _ _ _ _ hm
  obtain rfl : a1 = _ := List.mem_singleton.mp ha'
  obtain rfl : c1 = _ := List.mem_singleton.mp hc
  simp [sdQS, checkDiff, checkAbsDiff, get, fields_QSTZ, check, doubletChecked_eq _ _ hb, exactFactor, mult, evalMult]

private theorem ex_dsQSTZ : Exact fields_QSTZ (dsQSTZ) [0, 3, 0] := by
  intro Ip I1 hl ha hm
  obtain ⟨a, b, c, rfl⟩ := len3 Ip hl
  obtain ⟨a1, b1, c1, ha', hb, hc, rfl⟩ := fl3 _ _ _ _ _ _ _ _ _ _ hm
  obtain rfl : a1 = _ := List.mem_singleton.mp ha'
  obtain rfl : c1 = _ := List.mem_singleton.mp hc
  simp [dsQSTZ, checkDiff, checkAbsDiff, get, fields_QSTZ, check, triplet_eq _ _ hb, exactFactor, mult, evalMult]

private theorem ex_sdQJ : Exact fields_QJ (sdQJ) [1, 2] := by
  intro Ip I1 hl ha hm
  obtain ⟨a, b, rfl⟩ := len2 Ip hl
  obtain ⟨a1, b1, ha', hb, rfl⟩ := fl2 _ _ _ _ _ _ _ hm
  obtain rfl : a1 = _ := List.mem_singleton.mp ha'
  simp [sdQJ, checkDiff, checkAbsDiff, get, fields_QJ, check, doubletChecked_eq _ _ hb, exactFactor, mult, evalMult]

private theorem ex_sqQJ : Exact fields_QJ (sqQJ) [1, 4] := by
  intro Ip I1 hl ha hm
  obtain ⟨a, b, rfl⟩ := len2 Ip hl
  obtain ⟨a1, b1, ha', hb, rfl⟩ := fl2 _ _ _ _ _ _ _ hm
  obtain rfl : a1 = _ := List.mem_singleton.mp ha'
  simp [sqQJ, checkDiff, checkAbsDiff, get, fields_QJ, check, quadruplet_eq _ _ hb, exactFactor, mult, evalMult]

private theorem ex_sdISO : Exact fields_ISO (sdISO fields_ISO) [2, 2] := by
  intro Ip I1 hl ha hm
  obtain ⟨a, b, rfl⟩ := len2 Ip hl
  obtain ⟨a1, b1, ha', hb, rfl⟩ := fl2 _ _ _ _ _ _ _ hm
  simp [sdISO, checkDiff, checkAbsDiff, get, fields_ISO, check, doubletChecked_eq _ _ ha', doubletChecked_eq _ _ hb, exactFactor, mult, evalMult]
  ring

private theorem ex_sdISOLR (p : Int) : Exact fields_ISOLR (sdISO fields_ISOLR) [2, 2, p] := by
  intro Ip I1 hl ha hm
  obtain ⟨a, b, c, rfl⟩ := len3 Ip hl
  obtain ⟨a1, b1, c1, ha', hb, hc, rfl⟩ := fl3 _ _ _ _ _ _ _ _ _ _ hm
  obtain rfl : c1 = _ := List.mem_singleton.mp hc
  simp [sdISO, checkDiff, checkAbsDiff, get, fields_ISOLR, check, doubletChecked_eq _ _ ha', doubletChecked_eq _ _ hb, exactFactor, mult, evalMult]
  ring

private theorem ex_sdISOSZ (m : Int) (hm1 : |m| = 1) : Exact fields_ISOSZ (sdISOSZ fields_ISOSZ) [2, m] := by
  intro Ip I1 hl ha hm
  obtain ⟨a, b, rfl⟩ := len2 Ip hl
  obtain ⟨a1, b1, ha', hb, rfl⟩ := fl2 _ _ _ _ _ _ _ hm
  obtain rfl : b1 = _ := List.mem_singleton.mp hb
  simp [sdISOSZ, checkDiff, checkAbsDiff, get, fields_ISOSZ, check, hm1, doublet_eq _ _ ha', exactFactor, mult, evalMult]

private theorem ex_sdISOSZLR (m p : Int) (hm1 : |m| = 1) : Exact fields_ISOSZLR (sdISOSZ fields_ISOSZLR) [2, m, p] := by
  intro Ip I1 hl ha hm
  obtain ⟨a, b, c, rfl⟩ := len3 Ip hl
  obtain ⟨a1, b1, c1, ha', hb, hc, rfl⟩ := fl3 _ _ _ _ _ _ _ _ _ _ hm
  obtain rfl : b1 = _ := List.mem_singleton.mp hb
  obtain rfl : c1 = _ := List.mem_singleton.mp hc
  simp [sdISOSZ, checkDiff, checkAbsDiff, get, fields_ISOSZLR, check, hm1, doublet_eq _ _ ha', exactFactor, mult, evalMult]

private theorem ex_sdSU2 : Exact fields_SU2 (sdSU2) [2] := by
  intro Ip I1 hl ha hm
  obtain ⟨a, rfl⟩ := len1 Ip hl
  obtain ⟨a1, ha', rfl⟩ := fl1 _ _ _ _ hm
  simp [sdSU2, checkDiff, checkAbsDiff, get, fields_SU2, check, doubletChecked_eq _ _ ha', exactFactor, mult, evalMult]

private theorem ex_sdSPSU2 : Exact fields_SPSU2 (sdSPSU2) [2] := by
  intro Ip I1 hl ha hm
  obtain ⟨a, rfl⟩ := len1 Ip hl
  obtain ⟨a1, ha', rfl⟩ := fl1 _ _ _ _ hm
  simp [sdSPSU2, checkDiff, checkAbsDiff, get, fields_SPSU2, check, doubletChecked_eq _ _ ha', exactFactor, mult, evalMult]

private theorem ex_dsSPSU2 : Exact fields_SPSU2 (dsSPSU2 fields_SPSU2) [3] := by
  intro Ip I1 hl ha hm
  obtain ⟨a, rfl⟩ := len1 Ip hl
  obtain ⟨a1, ha', rfl⟩ := fl1 _ _ _ _ hm
  simp [dsSPSU2, checkDiff, checkAbsDiff, get, fields_SPSU2, check, triplet_eq _ _ ha', exactFactor, mult, evalMult]

private theorem ex_sdSPSU2C3 (p : Int) : Exact fields_SPSU2C3 (sdSPSU2C3) [2, p] := by
  intro Ip I1 hl ha hm
  obtain ⟨a, b, rfl⟩ := len2 Ip hl
  obtain ⟨a1, b1, ha', hb, rfl⟩ := fl2 _ _ _ _ _ _ _ hm
  obtain rfl : b1 = _ := List.mem_singleton.mp hb
  simp [sdSPSU2C3, checkDiff, checkAbsDiff, get, fields_SPSU2C3, check, doublet_eq _ _ ha', exactFactor, mult, evalMult]

private theorem ex_dsSPSU2C3 (p : Int) : Exact fields_SPSU2C3 (dsSPSU2 fields_SPSU2C3) [3, p] := by
  intro Ip I1 hl ha hm
  obtain ⟨a, b, rfl⟩ := len2 Ip hl
  obtain ⟨a1, b1, ha', hb, rfl⟩ := fl2 _ _ _ _ _ _ _ hm
  obtain rfl : b1 = _ := List.mem_singleton.mp hb
  simp [dsSPSU2, checkDiff, checkAbsDiff, get, fields_SPSU2C3, check, triplet_eq _ _ ha', exactFactor, mult, evalMult]

private theorem ex_sdQST : Exact fields_QST (sdQST) [1, 2, 1] := by
  intro Ip I1 hl ha hm
  obtain ⟨a, b, c, rfl⟩ := len3 Ip hl
  obtain ⟨a1, b1, c1, ha', hb, hc, rfl⟩ := fl3 _ _ _ _ _ _ _ _ _ _ hm
  obtain rfl : a1 = _ := List.mem_singleton.mp ha'
  simp only [fields_QST, allowed, evalAllow, Bool.and_eq_true, decide_eq_true_eq, gt_iff_lt, ge_iff_le, and_true] at ha
  obtain ⟨h1, h2⟩ := tripletT_eq _ _ (by omega) hc
  have h3 : ¬ (c1 = 0 ∧ c = 0) := by omega
  simp [sdQST, checkDiff, checkAbsDiff, get, fields_QST, check, doubletChecked_eq _ _ hb, h1, h3, exactFactor, mult, evalMult]
  ring

private theorem ex_sdSPSU2T : Exact fields_SPSU2T (sdSPSU2T) [2, 1] := by
  intro Ip I1 hl ha hm
  obtain ⟨a, b, rfl⟩ := len2 Ip hl
  obtain ⟨a1, b1, ha', hb, rfl⟩ := fl2 _ _ _ _ _ _ _ hm
  simp only [fields_SPSU2T, allowed, evalAllow, Bool.and_eq_true, decide_eq_true_eq, gt_iff_lt, ge_iff_le, and_true] at ha
  obtain ⟨h1, h2⟩ := tripletT_eq _ _ (by omega) hb
  simp [sdSPSU2T, checkDiff, checkAbsDiff, get, fields_SPSU2T, check, doubletChecked_eq _ _ ha', h1, exactFactor, mult, evalMult]
  ring

private theorem ex_sdDBLISOSZ1 (m : Int) (hm1 : |m| = 1) : Exact fields_DBLISOSZ (sdDBLISOSZ) [2, 1, m] := by
  intro Ip I1 hl ha hm
  obtain ⟨a, b, c, rfl⟩ := len3 Ip hl
  obtain ⟨a1, b1, c1, ha', hb, hc, rfl⟩ := fl3 _ _ _ _ _ _ _ _ _ _ hm
  simp only [fields_DBLISOSZ, allowed, evalAllow, Bool.and_eq_true, decide_eq_true_eq, gt_iff_lt, ge_iff_le, and_true] at ha
  obtain rfl : b1 = b := (mem_su2_one _ _ (by omega)).mp hb
  obtain rfl : c1 = _ := List.mem_singleton.mp hc
  have ha2 := (mem_su2_iff _ _ _).mp ha'
  have e : (a1 - a).natAbs = 1 := by omega
  have e2 : 1 ≤ b1 := by omega
  simp [sdDBLISOSZ, checkDiff, checkAbsDiff, get, fields_DBLISOSZ, check, hm1, e, e2, doublet_eq _ _ ha', exactFactor, mult, evalMult]
  ring

private theorem ex_sdDBLISOSZ2 (m : Int) (hm1 : |m| = 1) : Exact fields_DBLISOSZ (sdDBLISOSZ) [1, 2, m] := by
  intro Ip I1 hl ha hm
  obtain ⟨a, b, c, rfl⟩ := len3 Ip hl
  obtain ⟨a1, b1, c1, ha', hb, hc, rfl⟩ := fl3 _ _ _ _ _ _ _ _ _ _ hm
  simp only [fields_DBLISOSZ, allowed, evalAllow, Bool.and_eq_true, decide_eq_true_eq, gt_iff_lt, ge_iff_le, and_true] at ha
  obtain rfl : a1 = a := (mem_su2_one _ _ (by omega)).mp ha'
  obtain rfl : c1 = _ := List.mem_singleton.mp hc
  have ha2 := (mem_su2_iff _ _ _).mp hb
  have e : (b1 - b).natAbs = 1 := by omega
  have e2 : 1 ≤ a1 := by omega
  simp [sdDBLISOSZ, checkDiff, checkAbsDiff, get, fields_DBLISOSZ, check, hm1, e, e2, doublet_eq _ _ hb, exactFactor, mult, evalMult]
  ring

/-- Class QSC3 for labels with `P` in `0, 1, 2`. -/
private theorem ex_QSC3 (q s p : Int) (hp : p = 0 ∨ p = 1 ∨ p = 2) (I1 : Label) :
    (I1 ∈ finalLabels fields_QSC3 [q, s, p] [1, 2, 0] →
      sdQSC3 [q, s, p] I1 = some (exactFactor fields_QSC3 [1, 2, 0] I1)) ∧
    (I1 ∈ finalLabels fields_QSC3 [q, s, p] [0, 3, 0] →
      dsQSC3 [q, s, p] I1 = some (exactFactor fields_QSC3 [0, 3, 0] I1)) := by
  constructor <;> intro hm <;> obtain ⟨a1, b1, c1, ha', hb, hc, rfl⟩ := fl3 _ _ _ _ _ _ _ _ _ _ hm
  · obtain rfl : a1 = _ := List.mem_singleton.mp ha'
    obtain rfl : c1 = _ := List.mem_singleton.mp hc
    rw [c3_zero p hp]
    simp [sdQSC3, checkDiff, get, fields_QSC3, check, doublet_eq _ _ hb, exactFactor, mult, evalMult]
  · obtain rfl : a1 = _ := List.mem_singleton.mp ha'
    obtain rfl : c1 = _ := List.mem_singleton.mp hc
    rw [c3_zero p hp]
    simp [dsQSC3, checkDiff, get, fields_QSC3, check, triplet_eq _ _ hb, exactFactor, mult, evalMult]

private theorem consistent_all : ∀ fs ∈ [fields_QS, fields_QSLR, fields_QSC3, fields_QSTZ, fields_QST, fields_QJ, fields_ISO,
    fields_ISOLR, fields_ISOSZ, fields_SU2, fields_SPSU2, fields_SPSU2C3, fields_SPSU2T, fields_DBLISOSZ],
    ∀ f ∈ fs, Consistent f := by
  intro fs hfs
  simp only [List.mem_cons, List.not_mem_nil, or_false] at hfs
  rcases hfs with rfl | rfl | rfl | rfl | rfl | rfl | rfl | rfl | rfl | rfl | rfl | rfl | rfl | rfl <;> intro f hf
  all_goals
    simp only [fields_QS, fields_QSLR, fields_QSC3, fields_QSTZ, fields_QST, fields_QJ, fields_ISO,
      fields_ISOLR, fields_ISOSZ, fields_SU2, fields_SPSU2, fields_SPSU2C3, fields_SPSU2T, fields_DBLISOSZ,
      List.mem_cons, List.not_mem_nil, or_false] at hf
    repeat' (first | rcases hf with rfl | hf)
    all_goals simp [Consistent]

/-- C52.  Doublet operators (creation operators): in each of these classes the
factor is the exact one, the multiplicity of the final multiplet divided by that
of the operator, for every initial multiplet and every final multiplet that
angular-momentum coupling allows (`p`: parity or C3 label of the operator, `m`: its
z-component).  Class QSC3 is in `degeneracy_factors_QSC3`. -/
theorem doublet_factors_exact (p m : Int) (hm : |m| = 1) :
    Exact fields_QS (sdQS fields_QS) [1, 2] ∧ Exact fields_QSLR (sdQSLR fields_QSLR) [1, 2, p] ∧
    Exact fields_QSTZ (sdQS fields_QSTZ) [1, 2, p] ∧ Exact fields_QST sdQST [1, 2, 1] ∧
    Exact fields_QJ sdQJ [1, 2] ∧ Exact fields_QJ sqQJ [1, 4] ∧
    Exact fields_ISO (sdISO fields_ISO) [2, 2] ∧ Exact fields_ISOLR (sdISO fields_ISOLR) [2, 2, p] ∧
    Exact fields_ISOSZ (sdISOSZ fields_ISOSZ) [2, m] ∧ Exact fields_ISOSZLR (sdISOSZ fields_ISOSZLR) [2, m, p] ∧
    Exact fields_SU2 sdSU2 [2] ∧ Exact fields_SPSU2 sdSPSU2 [2] ∧ Exact fields_SPSU2C3 sdSPSU2C3 [2, p] ∧
    Exact fields_SPSU2T sdSPSU2T [2, 1] ∧
    Exact fields_DBLISOSZ sdDBLISOSZ [2, 1, m] ∧ Exact fields_DBLISOSZ sdDBLISOSZ [1, 2, m] :=
  ⟨ex_sdQS, ex_sdQSLR p, ex_sdQSTZ p, ex_sdQST, ex_sdQJ, ex_sqQJ, ex_sdISO, ex_sdISOLR p, ex_sdISOSZ m hm,
   ex_sdISOSZLR m p hm, ex_sdSU2, ex_sdSPSU2, ex_sdSPSU2C3 p, ex_sdSPSU2T, ex_sdDBLISOSZ1 m hm, ex_sdDBLISOSZ2 m hm⟩

/-- C52.  Spin-triplet operators (spin susceptibility). -/
theorem triplet_factors_exact (p : Int) :
    Exact fields_QS (dsQS fields_QS) [0, 3] ∧ Exact fields_QSLR (dsQS fields_QSLR) [0, 3, p] ∧
    Exact fields_QSTZ dsQSTZ [0, 3, 0] ∧ Exact fields_SPSU2 (dsSPSU2 fields_SPSU2) [3] ∧
    Exact fields_SPSU2C3 (dsSPSU2 fields_SPSU2C3) [3, p] :=
  ⟨ex_dsQS, ex_dsQSLR p, ex_dsQSTZ, ex_dsSPSU2, ex_dsSPSU2C3 p⟩

/-- C52 for class QSC3, whose labels have `P` in `0, 1, 2`. -/
theorem degeneracy_factors_QSC3 (q s p : Int) (hp : p = 0 ∨ p = 1 ∨ p = 2) (I1 : Label) :
    (I1 ∈ finalLabels fields_QSC3 [q, s, p] [1, 2, 0] →
      sdQSC3 [q, s, p] I1 = some (exactFactor fields_QSC3 [1, 2, 0] I1)) ∧
    (I1 ∈ finalLabels fields_QSC3 [q, s, p] [0, 3, 0] →
      dsQSC3 [q, s, p] I1 = some (exactFactor fields_QSC3 [0, 3, 0] I1)) :=
  ex_QSC3 q s p hp I1

/-- C52.  Sum rule: the factors to all final multiplets add up to the
multiplicity of the initial one. -/
theorem degeneracy_sum_rule_partial (p m : Int) (hm : |m| = 1) :
    SumRule fields_QS (sdQS fields_QS) [1, 2] ∧ SumRule fields_QSLR (sdQSLR fields_QSLR) [1, 2, p] ∧
    SumRule fields_QSTZ (sdQS fields_QSTZ) [1, 2, p] ∧ SumRule fields_QST sdQST [1, 2, 1] ∧
    SumRule fields_QJ sdQJ [1, 2] ∧ SumRule fields_QJ sqQJ [1, 4] ∧
    SumRule fields_ISO (sdISO fields_ISO) [2, 2] ∧ SumRule fields_ISOLR (sdISO fields_ISOLR) [2, 2, p] ∧
    SumRule fields_ISOSZ (sdISOSZ fields_ISOSZ) [2, m] ∧
    SumRule fields_SU2 sdSU2 [2] ∧ SumRule fields_SPSU2 sdSPSU2 [2] ∧ SumRule fields_SPSU2C3 sdSPSU2C3 [2, p] ∧
    SumRule fields_SPSU2T sdSPSU2T [2, 1] ∧
    SumRule fields_DBLISOSZ sdDBLISOSZ [2, 1, m] ∧ SumRule fields_DBLISOSZ sdDBLISOSZ [1, 2, m] ∧
    SumRule fields_QS (dsQS fields_QS) [0, 3] ∧ SumRule fields_QSLR (dsQS fields_QSLR) [0, 3, p] ∧
    SumRule fields_QSTZ dsQSTZ [0, 3, 0] ∧ SumRule fields_SPSU2 (dsSPSU2 fields_SPSU2) [3] ∧
    SumRule fields_SPSU2C3 (dsSPSU2 fields_SPSU2C3) [3, p] := by
  refine ⟨?_, ?_, ?_, ?_, ?_, ?_, ?_, ?_, ?_, ?_, ?_, ?_, ?_, ?_, ?_, ?_, ?_, ?_, ?_, ?_⟩
  all_goals
    refine sumRule_of_exact ?_ rfl rfl ?_ ?_
    · exact consistent_all _ (by simp)
    · simp [mult, evalMult, fields_QS, fields_QSLR, fields_QSTZ, fields_QST, fields_QJ, fields_ISO,
        fields_ISOLR, fields_ISOSZ, fields_SU2, fields_SPSU2, fields_SPSU2C3, fields_SPSU2T, fields_DBLISOSZ]
  exacts [ex_sdQS, ex_sdQSLR p, ex_sdQSTZ p, ex_sdQST, ex_sdQJ, ex_sqQJ, ex_sdISO, ex_sdISOLR p, ex_sdISOSZ m hm,
    ex_sdSU2, ex_sdSPSU2, ex_sdSPSU2C3 p, ex_sdSPSU2T, ex_sdDBLISOSZ1 m hm, ex_sdDBLISOSZ2 m hm,
    ex_dsQS, ex_dsQSLR p, ex_dsQSTZ, ex_dsSPSU2, ex_dsSPSU2C3 p]

-- a spin 1 multiplet goes to spin 3/2 with weight 2 and to spin 1/2 with weight 1
example : (finalLabels fields_QS [0, 3] [1, 2]).map (sdQS fields_QS [0, 3]) = [some 1, some 2] := by decide +kernel

/-! ### Rejected combinations -/

private theorem doubletChecked_some {a b : Int} {v : ℚ} (ha : 0 < a) (hb : 0 < b)
    (h : doubletChecked a b = some v) : b ∈ finals .su2 a 2 := by
  by_cases hc : (b - a).natAbs = 1
  · rw [mem_su2_iff]; omega
  · simp [doubletChecked, check, hc] at h

/-- C52 (rejection).  In these classes a transition that a doublet operator
cannot make is rejected or gets the factor zero. -/
theorem doublet_factors_reject_partial :
    Rejects fields_QS (sdQS fields_QS) [[1, 2]] ∧ Rejects fields_QJ sdQJ [[1, 2]] ∧
    Rejects fields_ISO (sdISO fields_ISO) [[2, 2]] ∧ Rejects fields_SU2 sdSU2 [[2]] ∧
    Rejects fields_SPSU2 sdSPSU2 [[2]] ∧ Rejects fields_QST sdQST [[1, 2, 1]] := by
  refine ⟨?_, ?_, ?_, ?_, ?_, ?_⟩
  · intro Ip I1 hl hl1 ha ha1 v hv _
    obtain ⟨a, b, rfl⟩ := len2 Ip hl
    obtain ⟨a1, b1, rfl⟩ := len2 I1 hl1
    simp [fields_QS, allowed, evalAllow] at ha ha1
    by_cases hq : a1 - a = 1
    · simp [sdQS, checkDiff, get, fields_QS, check, hq] at hv
      have := doubletChecked_some ha ha1 hv
      refine ⟨_, List.mem_singleton.mpr rfl, ?_⟩
      simp only [fields_QS, finalLabels, List.mem_flatMap, List.mem_map, List.mem_singleton]
      exact ⟨a1, by simp [finals]; omega, _, ⟨b1, this, _, rfl, rfl⟩, rfl⟩
    · simp [sdQS, checkDiff, get, fields_QS, check, hq] at hv
  · intro Ip I1 hl hl1 ha ha1 v hv _
    obtain ⟨a, b, rfl⟩ := len2 Ip hl
    obtain ⟨a1, b1, rfl⟩ := len2 I1 hl1
    simp [fields_QJ, allowed, evalAllow] at ha ha1
    by_cases hq : a1 - a = 1
    · simp [sdQJ, checkDiff, get, fields_QJ, check, hq] at hv
      have := doubletChecked_some ha ha1 hv
      refine ⟨_, List.mem_singleton.mpr rfl, ?_⟩
      simp only [fields_QJ, finalLabels, List.mem_flatMap, List.mem_map, List.mem_singleton]
      exact ⟨a1, by simp [finals]; omega, _, ⟨b1, this, _, rfl, rfl⟩, rfl⟩
    · simp [sdQJ, checkDiff, get, fields_QJ, check, hq] at hv
  · intro Ip I1 hl hl1 ha ha1 v hv _
    obtain ⟨a, b, rfl⟩ := len2 Ip hl
    obtain ⟨a1, b1, rfl⟩ := len2 I1 hl1
    simp [fields_ISO, allowed, evalAllow] at ha ha1
    simp [sdISO, get, fields_ISO, Option.bind_eq_some_iff] at hv
    obtain ⟨x, hx, y, hy, _⟩ := hv
    refine ⟨_, List.mem_singleton.mpr rfl, ?_⟩
    simp only [fields_ISO, finalLabels, List.mem_flatMap, List.mem_map, List.mem_singleton]
    exact ⟨a1, doubletChecked_some ha.1 ha1.1 hy, _, ⟨b1, doubletChecked_some ha.2 ha1.2 hx, _, rfl, rfl⟩, rfl⟩
  · intro Ip I1 hl hl1 ha ha1 v hv _
    obtain ⟨a, rfl⟩ := len1 Ip hl
    obtain ⟨a1, rfl⟩ := len1 I1 hl1
    simp [fields_SU2, allowed, evalAllow] at ha ha1
    simp [sdSU2, get, fields_SU2] at hv
    refine ⟨_, List.mem_singleton.mpr rfl, ?_⟩
    simp only [fields_SU2, finalLabels, List.mem_flatMap, List.mem_map, List.mem_singleton]
    exact ⟨a1, doubletChecked_some ha ha1 hv, _, rfl, rfl⟩
  · intro Ip I1 hl hl1 ha ha1 v hv _
    obtain ⟨a, rfl⟩ := len1 Ip hl
    obtain ⟨a1, rfl⟩ := len1 I1 hl1
    simp [fields_SPSU2, allowed, evalAllow] at ha ha1
    simp [sdSPSU2, get, fields_SPSU2] at hv
    refine ⟨_, List.mem_singleton.mpr rfl, ?_⟩
    simp only [fields_SPSU2, finalLabels, List.mem_flatMap, List.mem_map, List.mem_singleton]
    exact ⟨a1, doubletChecked_some ha ha1 hv, _, rfl, rfl⟩
  · intro Ip I1 hl hl1 ha ha1 v hv hv0
    obtain ⟨a, b, c, rfl⟩ := len3 Ip hl
    obtain ⟨a1, b1, c1, rfl⟩ := len3 I1 hl1
    simp [fields_QST, allowed, evalAllow] at ha ha1
    by_cases hq : a1 - a = 1
    · simp [sdQST, checkDiff, get, fields_QST, check, hq, Option.bind_eq_some_iff] at hv
      obtain ⟨x, hx, hv⟩ := hv
      by_cases hz : c1 = 0 ∧ c = 0
      · simp [hz] at hv; exact absurd hv.symm hv0
      · rw [if_neg hz] at hv
        refine ⟨_, List.mem_singleton.mpr rfl, ?_⟩
        simp only [fields_QST, finalLabels, List.mem_flatMap, List.mem_map, List.mem_singleton]
        refine ⟨a1, by simp [finals]; omega, _, ⟨b1, doubletChecked_some ha.1 ha1.1 hx, _,
          ⟨c1, ?_, _, rfl, rfl⟩, rfl⟩, rfl⟩
        rw [mem_su2T_iff _ _ _ ha.2 (by decide)]
        by_cases hc : (2 * c1 + 1 - (2 * c + 1)).natAbs = 2 ∨ 2 * c1 + 1 = 2 * c + 1
        · omega
        · push Not at hc
          have : triplet (2 * c + 1) (2 * c1 + 1) = none := by
            simp only [triplet, check]
            rw [decide_eq_false hc.1, decide_eq_false hc.2]; rfl
          rw [this] at hv; simp at hv
    · simp [sdQST, checkDiff, get, fields_QST, check, hq] at hv

/-! ### Classes where the property fails -/

/-- C52 fails for DBLSU2: the multiplicity of the second isospin, which `mult`
contains, is missing from the factor, so the sum rule is violated. -/
theorem dblsu2_not_sumRule : ¬ SumRule fields_DBLSU2 sdDBLSU2 [2, 1] := by
  intro h
  obtain ⟨vs, h1, h2⟩ := h [1, 2] rfl rfl
  have : (finalLabels fields_DBLSU2 [1, 2] [2, 1]).mapM (sdDBLSU2 [1, 2]) = some [1] := by decide +kernel
  rw [this] at h1
  obtain rfl : [1] = vs := by simpa using h1
  have : mult fields_DBLSU2 [1, 2] = 2 := by decide
  rw [this] at h2; norm_num at h2

/-- C52 fails for the spin and orbital susceptibilities of QST: the multiplicity of
the other angular momentum is missing. -/
theorem qst_susceptibility_not_sumRule :
    ¬ SumRule fields_QST dsQST [0, 3, 0] ∧ ¬ SumRule fields_QST orbQST [0, 1, 1] := by
  constructor
  · intro h
    obtain ⟨vs, h1, h2⟩ := h [0, 1, 1] rfl rfl
    have : (finalLabels fields_QST [0, 1, 1] [0, 3, 0]).mapM (dsQST [0, 1, 1]) = some [1] := by decide +kernel
    rw [this] at h1
    obtain rfl : [1] = vs := by simpa using h1
    have : mult fields_QST [0, 1, 1] = 3 := by decide
    rw [this] at h2; norm_num at h2
  · intro h
    obtain ⟨vs, h1, h2⟩ := h [0, 2, 0] rfl rfl
    have : (finalLabels fields_QST [0, 2, 0] [0, 1, 1]).mapM (orbQST [0, 2, 0]) = some [1] := by decide +kernel
    rw [this] at h1
    obtain rfl : [1] = vs := by simpa using h1
    have : mult fields_QST [0, 2, 0] = 2 := by decide
    rw [this] at h2; norm_num at h2

/-- The same for the spin susceptibility of SPSU2T. -/
theorem spsu2t_susceptibility_not_sumRule : ¬ SumRule fields_SPSU2T dsSPSU2T [3, 0] := by
  intro h
  obtain ⟨vs, h1, h2⟩ := h [1, 1] rfl rfl
  have : (finalLabels fields_SPSU2T [1, 1] [3, 0]).mapM (dsSPSU2T [1, 1]) = some [1] := by decide +kernel
  rw [this] at h1
  obtain rfl : [1] = vs := by simpa using h1
  have : mult fields_SPSU2T [1, 1] = 3 := by decide
  rw [this] at h2; norm_num at h2

/-- C52 fails for SPSU2LR: both factor functions look up a quantum number `Q`
that the class does not have, and always throw. -/
theorem spsu2lr_always_throws (Ip I1 : Label) :
    sdQSLR fields_SPSU2LR Ip I1 = none ∧ dsQS fields_SPSU2LR Ip I1 = none := by
  have h : ∀ I : Label, get fields_SPSU2LR I "Q" = none := by
    intro I
    match I with
    | [] => rfl
    | [_] => simp [get, fields_SPSU2LR]
    | _ :: _ :: _ => simp [get, fields_SPSU2LR]
  simp [sdQSLR, dsQS, checkDiff, h]

/-- Rejection fails where the assertion on the spins is missing: QSLR, QSC3,
SPSU2C3 and ISOSZ give a non-zero factor to a transition that conserves the spin. -/
theorem unchecked_not_rejects :
    ¬ Rejects fields_QSLR (sdQSLR fields_QSLR) [[1, 2, 1], [1, 2, -1]] ∧
    ¬ Rejects fields_QSC3 sdQSC3 [[1, 2, 0]] ∧
    ¬ Rejects fields_SPSU2C3 sdSPSU2C3 [[2, 0], [2, 1], [2, 2]] ∧
    ¬ Rejects fields_ISOSZ (sdISOSZ fields_ISOSZ) [[2, 1], [2, -1]] := by
  refine ⟨fun h => ?_, fun h => ?_, fun h => ?_, fun h => ?_⟩
  · have := h [0, 2, 1] [1, 2, 1] rfl rfl rfl rfl (1 / 2) (by decide +kernel) (by norm_num)
    revert this; decide
  · have := h [0, 2, 0] [1, 2, 0] rfl rfl rfl rfl (1 / 2) (by decide +kernel) (by norm_num)
    revert this; decide
  · have := h [2, 0] [2, 0] rfl rfl rfl rfl (1 / 2) (by decide +kernel) (by norm_num)
    revert this; decide
  · have := h [2, 0] [2, 1] rfl rfl rfl rfl (1 / 2) (by decide +kernel) (by norm_num)
    revert this; decide

/-- Rejection fails for triplet operators between two singlets (every class),
for the quadruplet operator of QJ from spin 1/2 to spin 0, and for SPSU2T between two
orbital singlets: the factor is defined and non-zero. -/
theorem singlets_not_rejected :
    ¬ Rejects fields_QS (dsQS fields_QS) [[0, 3]] ∧ ¬ Rejects fields_QJ sqQJ [[1, 4]] ∧
    ¬ Rejects fields_SPSU2T sdSPSU2T [[2, 1]] := by
  refine ⟨fun h => ?_, fun h => ?_, fun h => ?_⟩
  · have := h [0, 1] [0, 1] rfl rfl rfl rfl (1 / 3) (by decide +kernel) (by norm_num)
    revert this; decide
  · have := h [0, 2] [1, 1] rfl rfl rfl rfl (1 / 4) (by decide +kernel) (by norm_num)
    revert this; decide
  · have := h [1, 0] [2, 0] rfl rfl rfl rfl (1 / 3) (by decide +kernel) (by norm_num)
    revert this; decide

/-- Apart from the case above (spin 1/2 to spin 0), the quadruplet factor of QJ is non-zero only for transitions
that a spin-3/2 operator adding one charge allows. -/
theorem sqQJ_rejects_partial (Ip I1 : Label) (h1 : Ip.length = 2) (h2 : I1.length = 2)
    (ha : allowed fields_QJ Ip = true) (ha1 : allowed fields_QJ I1 = true)
    (v : ℚ) (hv : sqQJ Ip I1 = some v) (h0 : v ≠ 0) :
    I1.getD 0 0 = Ip.getD 0 0 + 1 ∧
    ((Ip.getD 1 0 = 2 ∧ I1.getD 1 0 = 1) ∨ I1.getD 1 0 ∈ finals .su2 (Ip.getD 1 0) 4) := by
  obtain ⟨q, j, rfl⟩ := len2 Ip h1
  obtain ⟨q1, j1, rfl⟩ := len2 I1 h2
  have hj : 0 < j := by simpa [allowed, fields_QJ, evalAllow] using ha
  have hj1 : 0 < j1 := by simpa [allowed, fields_QJ, evalAllow] using ha1
  have hq : q1 - q = 1 := by
    by_contra hne
    simp [sqQJ, checkDiff, get, fields_QJ, check, hne] at hv
  have hquad : quadruplet j j1 = some v := by
    simpa [sqQJ, checkDiff, get, fields_QJ, check, hq] using hv
  refine ⟨by simp; omega, ?_⟩
  simp only [List.getD_cons_succ, List.getD_cons_zero]
  have hcase : (j = 2 ∧ j1 = 1) ∨ (j1 = j + 3) ∨ (j1 = j + 1 ∧ 2 ≤ j) ∨ (j1 = j - 1 ∧ 3 ≤ j) ∨ (j1 = j - 3 ∧ 4 ≤ j) := by
    by_cases a : j1 = j + 3
    · exact .inr (.inl a)
    · by_cases b : j1 = j + 1
      · by_cases b2 : 2 ≤ j
        · exact .inr (.inr (.inl ⟨b, b2⟩))
        · simp [quadruplet, check, b, b2] at hquad
      · by_cases c : j1 = j - 1
        · omega
        · by_cases d : j1 = j - 3
          · exact .inr (.inr (.inr (.inr ⟨d, by omega⟩)))
          · exfalso
            have h5 : ¬ ((j1 - j).natAbs = 1 ∨ (j1 - j).natAbs = 3) := by omega
            simp [quadruplet, check, h5] at hquad
  simp only [finals, List.mem_map, List.mem_range]
  rcases hcase with h | h | h | h | h
  · exact .inl h
  · exact .inr ⟨(min j 4).toNat - 1, by omega, by omega⟩
  · exact .inr ⟨(min j 4).toNat - 2, by omega, by omega⟩
  · exact .inr ⟨(min j 4).toNat - 3, by omega, by omega⟩
  · exact .inr ⟨(min j 4).toNat - 4, by omega, by omega⟩

end Verif.Spin
