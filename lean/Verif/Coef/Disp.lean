import Verif.Coef.Plan
import Verif.Coef.CheckSound
import Verif.Invar.Spec
/-!
# Displacements of labels
-/

namespace Verif.Coef
open Verif.Invar Verif.Symm Verif.Oper

theorem dmul1_comm (t : QnType) (a b : Int) : dmul1 t a b = dmul1 t b a := by
  cases t <;> simp [dmul1, Int.add_comm, Int.mul_comm]

theorem dmul1_assoc (t : QnType) (a b c : Int) : dmul1 t (dmul1 t a b) c = dmul1 t a (dmul1 t b c) := by
  cases t <;> simp [dmul1, Int.add_assoc, Int.mul_assoc]

theorem dmul1_done (t : QnType) (a : Int) : dmul1 t a (done1 t) = a := by cases t <;> simp [dmul1, done1]

theorem dmul_comm (ts : List QnType) (a b : Label) : dmul ts a b = dmul ts b a := by
  induction ts generalizing a b with
  | nil => cases a <;> cases b <;> rfl
  | cons t ts ih => cases a <;> cases b <;> simp [dmul, dmul1_comm t, ih]

theorem dmul_assoc (ts : List QnType) (a b c : Label) : dmul ts (dmul ts a b) c = dmul ts a (dmul ts b c) := by
  induction ts generalizing a b c with
  | nil => cases a <;> cases b <;> cases c <;> rfl
  | cons t ts ih => cases a <;> cases b <;> cases c <;> simp [dmul, dmul1_assoc t, ih]

theorem dmul_length (ts : List QnType) {a b : Label} (ha : a.length = ts.length) (hb : b.length = ts.length) :
    (dmul ts a b).length = ts.length := by
  induction ts generalizing a b with
  | nil => cases a <;> cases b <;> simp_all [dmul]
  | cons t ts ih => cases a <;> cases b <;> simp_all [dmul]

theorem done_length (ts : List QnType) : (done ts).length = ts.length := by simp [done]

theorem dmul_done (ts : List QnType) {a : Label} (ha : a.length = ts.length) : dmul ts a (done ts) = a := by
  induction ts generalizing a with
  | nil => cases a <;> simp_all [dmul, done]
  | cons t ts ih =>
    cases a with
    | nil => simp at ha
    | cons x a =>
      have := @ih a (by simpa using ha)
      simp only [done, List.map_cons, dmul, dmul1_done] at this ⊢
      rw [this]

theorem labelOk_length {ts : List QnType} {a : Label} (h : labelOk ts a = true) : a.length = ts.length := by
  induction ts generalizing a with
  | nil => cases a <;> simp_all [labelOk]
  | cons t ts ih => cases a <;> simp_all [labelOk]

theorem labelOk_valid {fs : List Field} (hf : fs.all fieldOk' = true) {a : Label} :
    labelOk (types fs) a = true ↔ Valid (types fs) a := by
  induction fs generalizing a with
  | nil => cases a <;> simp [labelOk, types, Valid]
  | cons f fs ih =>
    simp only [List.all_cons, Bool.and_eq_true] at hf
    cases a with
    | nil => simp [labelOk, types, Valid]
    | cons x a =>
      have := @ih hf.2 a
      simp only [types, List.map_cons, labelOk, Bool.and_eq_true, Valid, List.forall₂_cons] at this ⊢
      rw [this]
      refine and_congr_left fun _ => ?_
      have h1 := hf.1
      cases ht : f.type with
      | additive => simp [signOk, Valid1]
      | multiplicative => simp [signOk, Valid1]
      | mod3 => rw [fieldOk', ht] at h1; simp at h1

theorem dmul_cancel {ts : List QnType} {X a b : Label} (hX : labelOk ts X = true) (ha : a.length = ts.length)
    (hb : b.length = ts.length) (h : dmul ts X a = dmul ts X b) : a = b := by
  induction ts generalizing X a b with
  | nil => cases a <;> cases b <;> simp_all
  | cons t ts ih =>
    match X, a, b with
    | [], _, _ => simp [labelOk] at hX
    | _ :: _, [], _ => simp at ha
    | _ :: _, _ :: _, [] => simp at hb
    | x :: X, y :: a, z :: b =>
      simp only [labelOk, Bool.and_eq_true] at hX
      simp only [dmul, List.cons.injEq] at h
      rw [ih hX.2 (by simpa using ha) (by simpa using hb) h.2]
      congr 1
      have h1 := h.1
      have h2 := hX.1
      cases t with
      | additive => simp only [dmul1] at h1; omega
      | mod3 => simp [signOk] at h2
      | multiplicative =>
        simp only [dmul1] at h1
        simp only [signOk, Bool.or_eq_true, beq_iff_eq] at h2
        rcases h2 with rfl | rfl <;> omega

theorem labelOk_dmul {ts : List QnType} {a b : Label} (ha : labelOk ts a = true) (hb : labelOk ts b = true) :
    labelOk ts (dmul ts a b) = true := by
  induction ts generalizing a b with
  | nil => cases a <;> cases b <;> simp_all [labelOk, dmul]
  | cons t ts ih =>
    match a, b with
    | [], _ => simp [labelOk] at ha
    | _ :: _, [] => simp [labelOk] at hb
    | x :: a, y :: b =>
      simp only [labelOk, Bool.and_eq_true] at ha hb
      simp only [dmul, labelOk, Bool.and_eq_true]
      refine ⟨?_, ih ha.2 hb.2⟩
      have h1 := ha.1; have h2 := hb.1
      cases t with
      | additive => rfl
      | mod3 => simp [signOk] at h1
      | multiplicative =>
        simp only [signOk, Bool.or_eq_true, beq_iff_eq] at h1 h2
        rcases h1 with rfl | rfl <;> rcases h2 with rfl | rfl <;> rfl

theorem combine_eq_dmul {fs : List Field} (hf : fs.all fieldOk' = true) {I x : Label} (hI : Valid (types fs) I)
    (hx : x.length = fs.length) : combine (types fs) I x = some (dmul (types fs) I x) := by
  induction fs generalizing I x with
  | nil => cases hI; cases x <;> rfl
  | cons f fs ih =>
    simp only [List.all_cons, Bool.and_eq_true] at hf
    obtain ⟨y, I, hy, hI', rfl⟩ := List.forall₂_cons_left_iff.1 hI
    cases x with
    | nil => simp at hx
    | cons x xs =>
      have := ih hf.2 hI' (by simpa using hx)
      simp only [types, List.map_cons, combine, dmul] at this ⊢
      rw [this]
      have h1 := hf.1
      cases ht : f.type with
      | additive => rfl
      | multiplicative =>
        rw [ht] at hy
        simp only [Valid1] at hy
        simp [combine1, dmul1, hy]
      | mod3 => rw [fieldOk', ht] at h1; simp at h1

theorem evalLabel_eq_dmul {z : Bool} {fs : List Field} {s : LabelExpr} {d I : Label} (h : dispOf z fs s = some d)
    (hI : I.length = fs.length) (hz : z = true → ∀ y ∈ I, y = 0) : evalLabel s I = dmul (types fs) I d := by
  induction fs generalizing s d I with
  | nil =>
    cases s with
    | nil => simp only [dispOf, Option.some.injEq] at h; subst h; cases I <;> rfl
    | cons c s => simp [dispOf] at h
  | cons f fs ih =>
    cases s with
    | nil => simp [dispOf] at h
    | cons c s =>
      cases I with
      | nil => simp at hI
      | cons x I =>
        simp only [dispOf] at h
        have ih' : ∀ d, dispOf z fs s = some d → evalLabel s I = dmul (types fs) I d := fun d hd =>
          ih hd (by simpa using hI) (fun e y hy => hz e y (by simp [hy]))
        cases ht : f.type <;> cases c <;> cases hd : dispOf z fs s <;> rw [ht, hd] at h <;>
          simp only [reduceCtorEq, Option.some.injEq] at h
        · subst h
          simp [evalLabel, types, dmul, ht, dmul1, Comp.eval, ih' _ hd]
        · split at h
          · rename_i hzz
            cases h
            have : x = 0 := hz hzz x (by simp)
            simp [evalLabel, types, dmul, ht, dmul1, Comp.eval, ih' _ hd, this]
          · cases h
        · subst h
          simp [evalLabel, types, dmul, ht, dmul1, Comp.eval, ih' _ hd]

theorem dispOf_length {z : Bool} {fs : List Field} {s : LabelExpr} {d : Label} (h : dispOf z fs s = some d) :
    d.length = fs.length := by
  induction fs generalizing s d with
  | nil =>
    cases s with
    | nil => simp only [dispOf, Option.some.injEq] at h; subst h; rfl
    | cons c s => simp [dispOf] at h
  | cons f fs ih =>
    cases s with
    | nil => simp [dispOf] at h
    | cons c s =>
      simp only [dispOf] at h
      cases ht : f.type <;> cases c <;> cases hd : dispOf z fs s <;> rw [ht, hd] at h <;>
        simp only [reduceCtorEq, Option.some.injEq] at h
      · subst h; simp [ih hd]
      · split at h
        · cases h; simp [ih hd]
        · cases h
      · subst h; simp [ih hd]

/-! ### Tests -/

theorem evalTest_dmul {f : Field} (hf : fieldOk' f = true) (hs : spinTest f.test = false) {x : Int}
    (hx : signOk f.type x = true) (a b c : Int) :
    evalTest f.test (dmul1 f.type x a) (dmul1 f.type x b) c = evalTest f.test a b c := by
  obtain ⟨name, type, test, m, al⟩ := f
  cases type <;> cases test <;> simp only [fieldOk', spinTest, reduceCtorEq, Bool.false_eq_true] at hf hs ⊢ <;>
    simp only [evalTest, dmul1]
  · rw [u1Equality, u1Equality, Bool.eq_iff_iff, beq_iff_eq, beq_iff_eq]
    constructor <;> intro h <;> omega
  · rw [z2Equality, z2Equality, Bool.eq_iff_iff, beq_iff_eq, beq_iff_eq]
    simp only [signOk, Bool.or_eq_true, beq_iff_eq] at hx
    rcases hx with rfl | rfl
    · simp
    · simp only [Int.neg_mul, Int.one_mul]; omega

theorem otherTri_dmul {fs : List Field} (hf : fs.all fieldOk' = true) {X : Label} (hX : labelOk (types fs) X = true)
    {a b c : Label} (ha : a.length = fs.length) (hb : b.length = fs.length) :
    otherTri fs (dmul (types fs) X a) (dmul (types fs) X b) c = otherTri fs a b c := by
  induction fs generalizing X a b c with
  | nil => rfl
  | cons f fs ih =>
    match X, a, b, c with
    | [], _, _, _ => simp [labelOk, types] at hX
    | _ :: _, [], _, _ => simp at ha
    | _ :: _, _ :: _, [], _ => simp at hb
    | _ :: _, _ :: _, _ :: _, [] => simp [otherTri]
    | x :: X, a :: as, b :: bs, c :: cs =>
      simp only [List.all_cons, Bool.and_eq_true] at hf
      simp only [types, List.map_cons, labelOk, Bool.and_eq_true] at hX
      have := @ih hf.2 X hX.2 as bs cs (by simpa using ha) (by simpa using hb)
      simp only [types, List.map_cons, dmul, otherTri] at this ⊢
      rw [this]
      congr 1
      cases hs : spinTest f.test with
      | true => rfl
      | false => rw [evalTest_dmul hf.1 hs hX.1]

theorem triangle_dmul {fs : List Field} (hf : fs.all fieldOk' = true) {I : Label} (hI : labelOk (types fs) I = true)
    {a b c : Label} (ha : a.length = fs.length) (hb : b.length = fs.length) (hc : c.length = fs.length) :
    triangle fs (dmul (types fs) I a) (dmul (types fs) I b) c = (spinTri fs I a b c && otherTri fs a b c) := by
  induction fs generalizing I a b c with
  | nil => cases a <;> cases b <;> cases c <;> simp_all [triangle, dmul, types, spinTri, otherTri]
  | cons f fs ih =>
    match I, a, b, c with
    | [], _, _, _ => simp [labelOk, types] at hI
    | _ :: _, [], _, _ => simp at ha
    | _ :: _, _ :: _, [], _ => simp at hb
    | _ :: _, _ :: _, _ :: _, [] => simp at hc
    | x :: X, a :: as, b :: bs, c :: cs =>
      simp only [List.all_cons, Bool.and_eq_true] at hf
      simp only [types, List.map_cons, labelOk, Bool.and_eq_true] at hI
      have := @ih hf.2 X hI.2 as bs cs (by simpa using ha) (by simpa using hb) (by simpa using hc)
      simp only [types, List.map_cons, dmul, triangle, otherTri, spinTri] at this ⊢
      rw [this]
      cases hs : spinTest f.test with
      | false =>
        rw [evalTest_dmul hf.1 hs hI.1]
        cases ht : f.test <;> rw [ht] at hs <;> simp [spinTest] at hs <;>
          simp [Bool.and_left_comm]
      | true =>
        have h1 := hf.1
        cases ht : f.test <;> rw [ht] at hs <;> simp [spinTest] at hs <;>
          cases hty : f.type <;> rw [fieldOk', hty, ht] at h1 <;> simp at h1 <;>
          simp [evalTest, dmul1, Bool.and_assoc]

theorem spinPart_length {fs : List Field} {a : Label} (h : a.length = fs.length) : (spinPart fs a).length = fs.length := by
  induction fs generalizing a with
  | nil => rfl
  | cons f fs ih => cases a <;> simp_all [spinPart]

theorem spinPart_idem (fs : List Field) (a : Label) : spinPart fs (spinPart fs a) = spinPart fs a := by
  induction fs generalizing a with
  | nil => rfl
  | cons f fs ih =>
    cases a with
    | nil => rfl
    | cons x a =>
      simp only [spinPart, ih, List.cons.injEq, and_true]
      by_cases h : spinTest f.test = true <;> simp [h]

theorem spinTri_part {fs : List Field} {I a b c : Label} :
    spinTri fs I a b c = spinTri fs I (spinPart fs a) (spinPart fs b) (spinPart fs c) := by
  induction fs generalizing I a b c with
  | nil => rfl
  | cons f fs ih =>
    cases I <;> cases a <;> cases b <;> cases c <;> simp only [spinTri, spinPart]
    rw [← ih]
    cases ht : f.test <;> simp [spinTest]

theorem spinPart_dmul {fs : List Field} {X a : Label} (hX : spinPart fs X = done (types fs)) :
    spinPart fs (dmul (types fs) X a) = spinPart fs a := by
  induction fs generalizing X a with
  | nil => rfl
  | cons f fs ih =>
    match X, a with
    | [], _ => simp [spinPart, done, types] at hX
    | _ :: _, [] => rfl
    | x :: X, a :: as =>
      simp only [types, List.map_cons, dmul, spinPart, done, List.cons.injEq] at hX ⊢
      have := @ih X as (by simpa [done, types] using hX.2)
      simp only [types] at this
      rw [this]
      refine ⟨?_, rfl⟩
      by_cases hs : spinTest f.test = true
      · simp only [hs, if_true] at hX ⊢
        rw [hX.1, dmul1_comm, dmul1_done]
      · simp [hs]

theorem spinPart_done (fs : List Field) : spinPart fs (done (types fs)) = done (types fs) := by
  induction fs with
  | nil => rfl
  | cons f fs ih =>
    simp only [done, types, List.map_cons, spinPart] at ih ⊢
    rw [ih]; simp

end Verif.Coef
