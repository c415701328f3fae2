import Verif.Oper.Check
import Verif.Symm.Props
/-!
# Lemmas: soundness of the table checks
-/

namespace Verif.Oper
open Verif.Invar Verif.Symm

theorem sameComp_eval {z : Bool} {g w : Comp} {x : Int} (h : sameComp z g w = true) (hz : z = true → x = 0) :
    g.eval x = w.eval x := by
  simp only [sameComp, Bool.or_eq_true, beq_iff_eq, Bool.and_eq_true] at h
  rcases h with rfl | ⟨hz', rfl, rfl⟩
  · rfl
  · simp [Comp.eval, hz hz']

theorem after_eval {s w u : Comp} {x : Int} (h : after s w = some u) : w.eval (s.eval x) = u.eval x := by
  cases s <;> cases w <;> simp only [after, Option.some.injEq, reduceCtorEq] at h <;> subst h <;>
    simp only [Comp.eval]
  · omega
  · rw [Int.mul_assoc]

theorem combine1_anc {t : QnType} (ht : t ≠ .mod3) {a x : Int} (ha : Valid1 t a) :
    combine1 t a x = some ((ancComp t x).eval a) := by
  cases t with
  | additive => rfl
  | multiplicative => simp only [Valid1] at ha; simp [combine1, ancComp, Comp.eval, ha]
  | mod3 => exact absurd rfl ht

theorem isAnc_sound {z : Bool} {fs : List Field} {g : LabelExpr} {x I : Label} (h : isAnc z fs g x = true)
    (hI : Valid (types fs) I) (hz : z = true → ∀ y ∈ I, y = 0) :
    combine (types fs) I x = some (evalLabel g I) := by
  induction fs generalizing g x I with
  | nil =>
    cases hI
    cases g <;> cases x <;> simp [isAnc] at h
    rfl
  | cons f fs ih =>
    obtain ⟨y, I, hy, hI', rfl⟩ := List.forall₂_cons_left_iff.1 hI
    cases g with
    | nil => simp [isAnc] at h
    | cons c g =>
      cases x with
      | nil => simp [isAnc] at h
      | cons x xs =>
        simp only [isAnc, Bool.and_eq_true, Bool.not_eq_true', decide_eq_false_iff_not] at h
        obtain ⟨h1, h2, h3⟩ := h
        simp only [types, List.map_cons, combine, evalLabel]
        rw [combine1_anc h1 hy, ← sameComp_eval h2 (fun e => hz e y (by simp))]
        have := ih h3 hI' (fun e w hw => hz e w (by simp [hw]))
        simp only [types] at this
        rw [this]; rfl

theorem isAncOf_sound {z : Bool} {fs : List Field} {s g : LabelExpr} {x I : Label}
    (h : isAncOf z fs s g x = true) (hI : Valid (types fs) I) (hs : Valid (types fs) (evalLabel s I))
    (hz : z = true → ∀ y ∈ I, y = 0) :
    combine (types fs) (evalLabel s I) x = some (evalLabel g I) := by
  induction fs generalizing s g x I with
  | nil =>
    cases hI
    cases s <;> cases g <;> cases x <;> simp [isAncOf] at h
    rfl
  | cons f fs ih =>
    obtain ⟨y, I, hy, hI', rfl⟩ := List.forall₂_cons_left_iff.1 hI
    cases s with
    | nil => simp [isAncOf] at h
    | cons c s =>
      cases g with
      | nil => simp [isAncOf] at h
      | cons d g =>
        cases x with
        | nil => simp [isAncOf] at h
        | cons x xs =>
          simp only [isAncOf, Bool.and_eq_true, Bool.not_eq_true', decide_eq_false_iff_not] at h
          obtain ⟨h1, h2, h3⟩ := h
          simp only [evalLabel] at hs
          obtain ⟨hs1, hs2⟩ := List.forall₂_cons.1 hs
          simp only [types, List.map_cons, combine, evalLabel]
          cases ha : after c (ancComp f.type x) with
          | none => rw [ha] at h2; cases h2
          | some w =>
            rw [ha] at h2
            rw [combine1_anc h1 hs1, after_eval ha, ← sameComp_eval h2 (fun e => hz e y (by simp))]
            have := ih h3 hI' hs2 (fun e w hw => hz e w (by simp [hw]))
            simp only [types] at this
            rw [this]; rfl

theorem sameExpr_eval {z : Bool} {g w : LabelExpr} {I : Label} (h : sameExpr z g w = true)
    (hz : z = true → ∀ y ∈ I, y = 0) : evalLabel g I = evalLabel w I := by
  induction g generalizing w I with
  | nil => cases w <;> simp [sameExpr] at h; rfl
  | cons c g ih =>
    cases w with
    | nil => simp [sameExpr] at h
    | cons d w =>
      simp only [sameExpr, Bool.and_eq_true] at h
      cases I with
      | nil => rfl
      | cons y I =>
        simp only [evalLabel]
        rw [sameComp_eval h.1 (fun e => hz e y (by simp)), ih h.2 (fun e w hw => hz e w (by simp [hw]))]

/-- Fields with a test that fits, or a plain charge without a test. -/
def fieldOk (f : Field) : Bool :=
  !(decide (f.type = .mod3)) && (testFits f || (decide (f.type = .additive) && (decide (f.test = .none) &&
    (!(decide (f.name ∈ ["SS", "II", "II1", "II2", "JJ"])) && !(decide (f.name = "T"))))))

theorem comps_spec (f : Field) (hf : fieldOk f = true) (a b c : Int) (ha : Valid1 f.type a)
    (hb : Valid1 f.type b) :
    (∃ x ∈ comps f c, x.eval a = b ∧ evalTest f.test a b c = true) ↔ Carries1 f.name f.type a b c := by
  obtain ⟨name, type, test, m, al⟩ := f
  simp only [fieldOk, Bool.and_eq_true, Bool.not_eq_true', decide_eq_false_iff_not, Bool.or_eq_true,
    decide_eq_true_eq] at hf
  simp only at ha hb
  cases type with
  | mod3 => exact absurd rfl hf.1
  | multiplicative =>
    rcases hf.2 with h | h
    · have h : test = .z2 := by simpa [testFits] using h
      subst h
      simp only [comps, List.mem_singleton, exists_eq_left, Comp.eval, evalTest, z2Equality, beq_iff_eq,
        Carries1, Couples1, reduceCtorEq, false_imp_iff, and_true]
      constructor
      · exact fun h => h.2
      · intro h
        refine ⟨?_, h⟩
        subst h
        have hcc : c = 1 ∨ c = -1 := by
          rcases hb with rfl | rfl <;> rcases ha with h | h <;> omega
        rcases hb with rfl | rfl <;> rcases hcc with rfl | rfl <;> decide
    · cases h.1
  | additive =>
    simp only [comps, Carries1, Couples1]
    by_cases h1 : name ∈ ["SS", "II", "II1", "II2", "JJ"]
    · simp only [testFits, if_pos h1, h1, not_true_eq_false, and_false, false_and, or_false] at hf
      have h : test = .su2 := by simpa using hf.2
      subst h
      simp only [if_pos h1, List.mem_map, List.mem_range, evalTest, su2Triangle_iff]
      constructor
      · rintro ⟨x, ⟨k, hk, rfl⟩, hx, hs⟩
        refine ⟨hs, fun _ _ => ?_⟩
        simp only [Comp.eval] at hx
        omega
      · rintro ⟨hs, hp⟩
        have hp := hp trivial h1
        have hs' := hs
        simp only [SpinsCouple, abs_le] at hs'
        refine ⟨.plus (c - 1 - 2 * (((c - 1 - (b - a)) / 2).toNat : Int)), ⟨((c - 1 - (b - a)) / 2).toNat, ?_, rfl⟩, ?_, hs⟩
        · omega
        · simp only [Comp.eval]; omega
    · by_cases h2 : name = "T"
      · subst h2
        simp only [testFits] at hf
        have h : test = .su2T := by
          rcases hf.2 with h | h
          · simpa using h
          · exact absurd trivial h.2.2.2
        subst h
        simp only [if_neg h1, if_true, List.mem_map, List.mem_range, evalTest, su2Triangle_iff]
        constructor
        · rintro ⟨x, ⟨k, hk, rfl⟩, hx, hs⟩
          exact ⟨hs, fun _ h => absurd h h1⟩
        · rintro ⟨hs, -⟩
          have hs' := hs
          simp only [SpinsCouple, abs_le] at hs'
          refine ⟨.plus (c - ((c - (b - a)).toNat : Int)), ⟨(c - (b - a)).toNat, ?_, rfl⟩, ?_, hs⟩
          · omega
          · simp only [Comp.eval]; omega
      · simp only [if_neg h1, if_neg h2, List.mem_singleton, exists_eq_left, Comp.eval]
        simp only [testFits, if_neg h1, if_neg h2] at hf
        have ht : test = .u1 ∨ test = .none := by
          rcases hf.2 with h | h
          · left; simpa using h
          · exact Or.inr h.2.1
        constructor
        · rintro ⟨h, _⟩
          exact ⟨by omega, fun _ h => absurd h h1⟩
        · rintro ⟨h, _⟩
          refine ⟨by omega, ?_⟩
          rcases ht with rfl | rfl
          · simp [evalTest, u1Equality, h]
          · rfl

/-- The targets of an operator label, together with the coupling test, are exactly the
labels the operator connects. -/
theorem shifts_spec (fs : List Field) (hf : ∀ f ∈ fs, fieldOk f = true) (a b c : Label)
    (hc : c.length = fs.length) (ha : Valid (types fs) a) (hb : Valid (types fs) b) :
    (∃ e ∈ shifts fs c, evalLabel e a = b ∧ triangle fs a b c = true) ↔ Carries fs a b c := by
  induction fs generalizing a b c with
  | nil =>
    cases ha; cases hb
    cases c with
    | nil => simp [shifts, evalLabel, triangle, Carries]
    | cons x xs => simp at hc
  | cons f fs ih =>
    obtain ⟨x, a, hx, ha', rfl⟩ := List.forall₂_cons_left_iff.1 ha
    obtain ⟨y, b, hy, hb', rfl⟩ := List.forall₂_cons_left_iff.1 hb
    cases c with
    | nil => simp at hc
    | cons z c =>
      simp only [Carries, ← comps_spec f (hf f (by simp)) x y z hx hy,
        ← ih (fun g hg => hf g (by simp [hg])) a b c (by simpa using hc) ha' hb']
      simp only [shifts, List.mem_flatMap, List.mem_map, triangle, Bool.and_eq_true]
      constructor
      · rintro ⟨e, ⟨w, hw, v, hv, rfl⟩, he, h1, h2⟩
        simp only [evalLabel, List.cons.injEq] at he
        exact ⟨⟨w, hw, he.1, h1⟩, v, hv, he.2, h2⟩
      · rintro ⟨⟨w, hw, he, h1⟩, v, hv, hv', h2⟩
        exact ⟨w :: v, ⟨w, hw, v, hv, rfl⟩, by simp [evalLabel, he, hv'], h1, h2⟩

end Verif.Oper
