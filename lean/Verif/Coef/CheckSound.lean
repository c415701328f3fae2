import Verif.Coef.Check
import Verif.Coef.NfSound
import Verif.Symm.Count
import Verif.Coef.Table
/-!
# Soundness of the checks of the identities between factors
-/

namespace Verif.Coef
open Verif.Invar Verif.Symm
variable {u v : ℝ}

/-! ### Regimes -/

/-- The multiplicity of a spin. -/
def spinY : Test → Int → Int
  | .su2T, x => 2 * x + 1
  | _, x => x

def Reg.Holds (u v : ℝ) (y : Int) : Reg → Prop
  | .conc y' => y = y'
  | .genU y0 => (y : ℝ) = y0 + u
  | .genV y0 => (y : ℝ) = y0 + v

def Test.isSpin : Test → Bool
  | .su2 => true
  | .su2T => true
  | _ => false

/-- The spins in the label are in the regime. -/
def Match (u v : ℝ) : List Field → List (Option Reg) → Label → Prop
  | f :: fs, r :: rs, x :: I =>
    (∀ r', r = some r' → Test.isSpin f.test = true ∧ r'.Holds u v (spinY f.test x)) ∧ Match u v fs rs I
  | [], [], [] => True
  | _, _, _ => False

/-- The tests of the spins in labels displaced from `I`. -/
def spinTri : List Field → Label → Label → Label → Label → Bool
  | f :: fs, x :: I, a :: as, b :: bs, c :: cs =>
    (match f.test with
      | .su2 => su2Triangle (x + a) (x + b) c
      | .su2T => su2Triangle (2 * (x + a) + 1) (2 * (x + b) + 1) (2 * c + 1)
      | _ => true) && spinTri fs I as bs cs
  | _, _, _, _, _ => true

theorem su2Gen_sound {y0 : Nat} {w : ℝ} (hw : 0 ≤ w) {y a b c : Int} (hy : (y : ℝ) = y0 + w) {β : Bool}
    (h : su2Reg.su2Gen y0 a b c = some β) : su2Triangle (y + a) (y + b) c = β := by
  have hy' : (y0 : Int) ≤ y := by
    have : ((y0 : Int) : ℝ) ≤ (y : ℝ) := by rw [hy]; push_cast; linarith
    exact_mod_cast this
  unfold su2Reg.su2Gen at h
  split at h
  · cases h
    rw [Bool.eq_false_iff, ne_eq, su2Triangle_iff]
    simp only [SpinsCouple, abs_le]; omega
  · split at h
    · cases h
      rw [su2Triangle_iff]
      simp only [SpinsCouple, abs_le]; omega
    · cases h

theorem su2Reg_sound (hu : 0 ≤ u) (hv : 0 ≤ v) {r : Reg} {y a b c : Int} (hr : r.Holds u v y) {β : Bool}
    (h : su2Reg r a b c = some β) : su2Triangle (y + a) (y + b) c = β := by
  cases r with
  | conc y' =>
    simp only [Reg.Holds] at hr; subst hr
    simpa [su2Reg] using h
  | genU y0 => exact su2Gen_sound hu hr h
  | genV y0 => exact su2Gen_sound hv hr h

theorem and3_some {p q : Option Bool} {β : Bool} {x y : Bool} (hp : ∀ b, p = some b → x = b) (hq : ∀ b, q = some b → y = b)
    (h : and3 p q = some β) : (x && y) = β := by
  rcases p with _ | _ | _ <;> rcases q with _ | _ | _ <;> simp [and3] at h <;> subst h <;>
    simp [hp, hq]
  all_goals first
    | (have := hp _ rfl; simp [this]; done)
    | (have := hq _ rfl; simp [this]; done)

theorem symTri_sound (hu : 0 ≤ u) (hv : 0 ≤ v) {fs : List Field} {rs : List (Option Reg)} {I a b c : Label}
    (hm : Match u v fs rs I) {β : Bool} (h : symTri fs rs a b c = some β) : spinTri fs I a b c = β := by
  induction fs generalizing rs I a b c β with
  | nil => simp only [symTri, Option.some.injEq] at h; subst h; rfl
  | cons f fs ih =>
    match rs, I, hm with
    | r :: rs, x :: I, hm =>
      match a, b, c with
      | [], b, c => simp only [symTri, Option.some.injEq] at h; subst h; rfl
      | _ :: _, [], c => simp only [symTri, Option.some.injEq] at h; subst h; rfl
      | _ :: _, _ :: _, [] => simp only [symTri, Option.some.injEq] at h; subst h; rfl
      | a :: as, b :: bs, c :: cs =>
        have ih' : ∀ β, symTri fs rs as bs cs = some β → spinTri fs I as bs cs = β := fun β h' => ih hm.2 h'
        simp only [symTri] at h
        simp only [spinTri]
        cases ht : f.test with
        | su2 =>
          cases r with
          | none => rw [ht] at h; cases h
          | some r =>
            rw [ht] at h
            have hr := (hm.1 r rfl).2
            rw [ht] at hr
            exact and3_some (fun β' h' => su2Reg_sound hu hv hr h') ih' h
        | su2T =>
          cases r with
          | none => rw [ht] at h; cases h
          | some r =>
            rw [ht] at h
            have hr := (hm.1 r rfl).2
            rw [ht] at hr
            refine and3_some (fun β' h' => ?_) ih' h
            have := su2Reg_sound hu hv hr h'
            simp only [spinY] at this
            rw [← this]; congr 1 <;> ring
        | none => rw [ht] at h; simpa using ih' β (by simpa using h)
        | u1 => rw [ht] at h; simpa using ih' β (by simpa using h)
        | z2 => rw [ht] at h; simpa using ih' β (by simpa using h)
        | c3 => rw [ht] at h; simpa using ih' β (by simpa using h)

/-! ### Values of the spins -/

theorem evE_unitE {w : ℝ} (hw : 0 ≤ w) (n k : Nat) (hk : 1 ≤ k) : evE w k (unitE (n + 1)) = w + (k + n : Nat) := by
  induction n generalizing k with
  | zero =>
    simp only [unitE, evE]
    have h0 : (0 : ℝ) ≤ w + k := by positivity
    rw [mul_one]
    show Real.sqrt (w + k) ^ (2 : Int) = _
    rw [zpow_ofNat, Real.sq_sqrt h0]; simp
  | succ n ih =>
    simp only [unitE, evE]
    rw [ih (k + 1) (by omega), zpow_zero]
    push_cast; ring

theorem Reg.val_sound (hu : 0 ≤ u) (hv : 0 ≤ v) {r : Reg} {y : Int} (hr : r.Holds u v y) {a : AVal} (h : r.val = some a) :
    Rel u v a (.of (((y : ℝ) - 1) / 2)) := by
  cases r with
  | conc y' =>
    simp only [Reg.Holds] at hr; subst hr
    have := AVal.ofRat_sound (u := u) (v := v) h
    simpa using this
  | genU y0 =>
    simp only [Reg.val] at h
    split at h
    · rename_i h2
      cases h
      refine AVal.rel_of ?_
      obtain ⟨n, rfl⟩ : ∃ n, y0 = n + 2 := ⟨y0 - 2, by omega⟩
      simp only [Reg.Holds] at hr
      simp only [Mono.val, Nat.add_succ_sub_one]
      rw [evE_unitE hu n 1 le_rfl, hr]
      simp [evE, ev2, ev1]; push_cast; ring
    · cases h
  | genV y0 =>
    simp only [Reg.val] at h
    split at h
    · rename_i h2
      cases h
      refine AVal.rel_of ?_
      obtain ⟨n, rfl⟩ : ∃ n, y0 = n + 2 := ⟨y0 - 2, by omega⟩
      simp only [Reg.Holds] at hr
      simp only [Mono.val, Nat.add_succ_sub_one]
      rw [evE_unitE hv n 1 le_rfl, hr]
      simp [evE, ev2, ev1]; push_cast; ring
    · cases h

theorem envOf_sound (hu : 0 ≤ u) (hv : 0 ≤ v) {fs : List Field} {rs : List (Option Reg)} {I : Label}
    (hm : Match u v fs rs I) (i : Nat) {a : AVal} (h : envOf rs i = some a) : Rel u v a (.of (labelEnv fs I i)) := by
  induction fs generalizing rs I i with
  | nil =>
    match rs, I, hm with
    | [], [], _ => simp [envOf] at h
  | cons f fs ih =>
    match rs, I, hm with
    | r :: rs, x :: I, hm =>
      cases i with
      | zero =>
        cases r with
        | none => simp [envOf] at h
        | some r =>
          have h' : r.val = some a := h
          obtain ⟨hs, hr⟩ := hm.1 r rfl
          have := Reg.val_sound hu hv hr h'
          have e : labelEnv (f :: fs) (x :: I) 0 = ((spinY f.test x : Int) - 1 : ℝ) / 2 := by
            show spinVal f.test x = _
            cases ht : f.test <;> rw [ht] at hs <;> simp [Test.isSpin] at hs
            · simp [spinVal, spinY]
            · simp [spinVal, spinY]
          rw [e]; exact this
      | succ i =>
        have := ih hm.2 i h
        exact this

/-! ### Sums of products -/

namespace FVal

noncomputable def real (x : FVal) : ℝ := x.toReal.getD 0

theorem mul_toReal {x y : FVal} {r : ℝ} (h : (x.mul y).toReal = some r) :
    x.toReal.isSome ∧ y.toReal.isSome ∧ r = x.real * y.real := by
  cases x <;> cases y <;> simp [mul, toReal, real] at h ⊢ <;> exact h.symm

end FVal

theorem rel_fin {m : Mono} {x : FVal} (h : Rel u v (.fin m) x) : x.toReal = some (m.val u v) := by
  cases x <;> simp only [Rel] at h
  · simp [FVal.toReal, h.2]
  · simp [FVal.toReal, h]

theorem rel_zero {s : Option Bool} {x : FVal} (h : Rel u v (.zero s) x) : x.toReal = some 0 := by
  cases x <;> simp only [Rel] at h
  rfl

theorem insF_sound (hu : 0 ≤ u) (hv : 0 ≤ v) {α : Type} (m : Mono) (l : List Mono) (k : List Mono → α) :
    ∃ l', insF m l k = k l' ∧ (l'.map (Mono.val u v)).sum = (l.map (Mono.val u v)).sum + m.val u v := by
  induction l generalizing k with
  | nil => exact ⟨[m], rfl, by simp⟩
  | cons x t ih =>
    have e : insF m (x :: t) k = Mono.addF x m (insF m t fun t => k (x :: t)) (k t) (fun y => k (y :: t)) := rfl
    rw [e, Mono.addF_eq]
    cases h : x.add m with
    | none =>
      obtain ⟨l', h1, h2⟩ := ih fun t => k (x :: t)
      refine ⟨x :: l', by simpa using h1, ?_⟩
      rw [List.map_cons, List.sum_cons, h2, List.map_cons, List.sum_cons]; ring
    | some o =>
      have hs := Mono.val_add hu hv x m o h
      cases o with
      | none =>
        refine ⟨t, rfl, ?_⟩
        rw [List.map_cons, List.sum_cons]
        simp at hs
        linarith
      | some y =>
        refine ⟨y :: t, rfl, ?_⟩
        simp at hs
        rw [List.map_cons, List.sum_cons, List.map_cons, List.sum_cons, ← hs]; ring

/-- All tests hold. -/
def holdsAll (fs : List Field) (I : Label) (l : List STest) : Bool := l.all fun t => spinTri fs I t.a t.b t.c

theorem testsF_sound (hu : 0 ≤ u) (hv : 0 ≤ v) {fs : List Field} {rs : List (Option Reg)} {I : Label}
    (hm : Match u v fs rs I) {α : Type} (l : List STest) (y n z : α) :
    testsF fs rs l y n z = z ∨ testsF fs rs l y n z = (if holdsAll fs I l then y else n) := by
  induction l with
  | nil => exact .inr rfl
  | cons t l ih =>
    have e : testsF fs rs (t :: l) y n z =
        @Option.rec Bool (fun _ => α) z (fun b => fB b (testsF fs rs l y n z) n) (symTri fs rs t.a t.b t.c) := rfl
    rw [e]
    cases h : symTri fs rs t.a t.b t.c with
    | none => exact .inl rfl
    | some b =>
      have hb := symTri_sound hu hv hm h
      simp only [holdsAll, List.all_cons, hb]
      cases b with
      | true => simpa [fB, holdsAll] using ih
      | false => exact .inr rfl

/-- The values of a list of factors. -/
noncomputable def facVal (fac : List Ex) (env : Nat → ℝ) (k : Nat) : FVal :=
  match fac[k]? with
  | some e => e.eval env
  | none => .nan

theorem valF_sound (hu : 0 ≤ u) (hv : 0 ≤ v) {fac : List Ex} {env : Nat → Option AVal} {envR : Nat → ℝ}
    (he : ∀ i a, env i = some a → Rel u v a (.of (envR i))) {k : Nat} {a : AVal} (h : valF fac env k = some a) :
    Rel u v a (facVal fac envR k) := by
  unfold valF at h
  unfold facVal
  cases hk : fac[k]? with
  | none => rw [hk] at h; cases h
  | some e =>
    rw [hk] at h
    exact Ex.norm_sound hu hv he e (by rw [← Ex.normF_eq]; exact h)

theorem prodF_sound (hu : 0 ≤ u) (hv : 0 ≤ v) {fac : List Ex} {env : Nat → Option AVal} {envR : Nat → ℝ}
    (he : ∀ i a, env i = some a → Rel u v a (.of (envR i))) {k l : Nat} {a : AVal} (h : prodF fac env k l = some a) :
    Rel u v a ((facVal fac envR k).mul (facVal fac envR l)) := by
  unfold prodF at h
  rw [fO_eq] at h
  cases h1 : valF fac env k with
  | none => rw [h1] at h; cases h
  | some x =>
    rw [h1] at h
    simp only [Option.map_some, Option.getD_some] at h
    rw [fO_eq] at h
    cases h2 : valF fac env l with
    | none => rw [h2] at h; cases h
    | some y =>
      rw [h2] at h
      simp only [Option.map_some, Option.getD_some, AVal.mulF_eq] at h
      refine AVal.mul_sound hu hv (valF_sound hu hv he h1) (valF_sound hu hv he h2) ?_
      cases h3 : x.mul y with
      | none => rw [h3] at h; cases h
      | some c => rw [h3] at h; exact h

/-- The product if its tests hold. -/
noncomputable def Quad.term (fs : List Field) (F : Nat → FVal) (I : Label) (q : Quad) : ℝ :=
  if holdsAll fs I q.tests then (F q.k).real * (F q.l).real else 0

theorem sumF_sound (hu : 0 ≤ u) (hv : 0 ≤ v) {fs : List Field} {rs : List (Option Reg)} {I : Label}
    (hm : Match u v fs rs I) {fac : List Ex} (qs : List Quad) (l : List Mono) (k : List Mono → Bool)
    (h : sumF fs rs fac (envOf rs) qs false l k = true) :
    (∀ q ∈ qs, holdsAll fs I q.tests = true →
      (facVal fac (labelEnv fs I) q.k).toReal.isSome ∧ (facVal fac (labelEnv fs I) q.l).toReal.isSome) ∧
    ∃ l', k l' = true ∧ (l'.map (Mono.val u v)).sum =
      (l.map (Mono.val u v)).sum + (qs.map (Quad.term fs (facVal fac (labelEnv fs I)) I)).sum := by
  induction qs generalizing l with
  | nil => exact ⟨by simp, l, h, by simp⟩
  | cons q qs ih =>
    obtain ⟨ts, x, y⟩ := q
    have e : sumF fs rs fac (envOf rs) (⟨ts, x, y⟩ :: qs) false l k = testsF fs rs ts
      (fO (prodF fac (envOf rs) x y) false fun a => AVal.cases' a
        (fun m => insF m l fun l => sumF fs rs fac (envOf rs) qs false l k)
        (fun _ => sumF fs rs fac (envOf rs) qs false l k) (fun _ => false) false)
      (sumF fs rs fac (envOf rs) qs false l k) false := rfl
    rw [e] at h
    rcases testsF_sound hu hv hm ts
      (fO (prodF fac (envOf rs) x y) false fun a => AVal.cases' a
        (fun m => insF m l fun l => sumF fs rs fac (envOf rs) qs false l k)
        (fun _ => sumF fs rs fac (envOf rs) qs false l k) (fun _ => false) false)
      (sumF fs rs fac (envOf rs) qs false l k) false with h' | h'
    · rw [h'] at h; cases h
    · rw [h'] at h
      cases ht : holdsAll fs I ts with
      | false =>
        rw [ht] at h
        obtain ⟨h1, l', h2, h3⟩ := ih l (by simpa using h)
        refine ⟨?_, l', h2, ?_⟩
        · intro q hq hqt
          rcases List.mem_cons.1 hq with rfl | hq
          · rw [ht] at hqt; cases hqt
          · exact h1 q hq hqt
        · rw [h3, List.map_cons, List.sum_cons, Quad.term, ht]; simp
      | true =>
        rw [ht, if_pos rfl, fO_eq] at h
        cases hp : prodF fac (envOf rs) x y with
        | none => rw [hp] at h; cases h
        | some a =>
          rw [hp] at h
          simp only [Option.map_some, Option.getD_some] at h
          have hr := prodF_sound hu hv (fun i a ha => envOf_sound hu hv hm i ha) hp
          cases a with
          | fin m =>
            have h : insF m l (fun l => sumF fs rs fac (envOf rs) qs false l k) = true := h
            obtain ⟨l1, h1, h2⟩ := insF_sound hu hv m l (fun l => sumF fs rs fac (envOf rs) qs false l k)
            rw [h1] at h
            obtain ⟨h3, l', h4, h5⟩ := ih l1 h
            obtain ⟨f1, f2, f3⟩ := FVal.mul_toReal (rel_fin hr)
            refine ⟨?_, l', h4, ?_⟩
            · intro q hq hqt
              rcases List.mem_cons.1 hq with rfl | hq
              · exact ⟨f1, f2⟩
              · exact h3 q hq hqt
            · rw [h5, h2, List.map_cons, List.sum_cons, Quad.term, ht, f3]; simp; ring
          | zero s =>
            have h : sumF fs rs fac (envOf rs) qs false l k = true := h
            obtain ⟨h3, l', h4, h5⟩ := ih l h
            obtain ⟨f1, f2, f3⟩ := FVal.mul_toReal (rel_zero hr)
            refine ⟨?_, l', h4, ?_⟩
            · intro q hq hqt
              rcases List.mem_cons.1 hq with rfl | hq
              · exact ⟨f1, f2⟩
              · exact h3 q hq hqt
            · rw [h5, List.map_cons, List.sum_cons, Quad.term, ht, if_pos rfl, ← f3]; ring
          | inf s => cases h
          | nan => cases h

/-- What an item says about the factors `F`. -/
def Item.Holds (fs : List Field) (F : Nat → FVal) (I : Label) (it : Item) : Prop :=
  holdsAll fs I it.cond = true →
    (∀ q ∈ it.quads, holdsAll fs I q.tests = true → (F q.k).toReal.isSome ∧ (F q.l).toReal.isSome) ∧
    (it.quads.map (Quad.term fs F I)).sum = if it.diag then 1 else 0

theorem itemOk_sound (hu : 0 ≤ u) (hv : 0 ≤ v) {fs : List Field} {rs : List (Option Reg)} {I : Label}
    (hm : Match u v fs rs I) {fac : List Ex} {it : Item} (h : itemOk fs fac rs it = true) :
    it.Holds fs (facVal fac (labelEnv fs I)) I := by
  obtain ⟨cond, qs, d⟩ := it
  intro hc
  have e : itemOk fs fac rs ⟨cond, qs, d⟩ = testsF fs rs cond
    (sumF fs rs fac (envOf rs) qs false (fB d [.const (-1) 1] []) isNil) true false := rfl
  rw [e] at h
  rcases testsF_sound hu hv hm cond
    (sumF fs rs fac (envOf rs) qs false (fB d [.const (-1) 1] []) isNil) true false with h' | h'
  · rw [h'] at h; cases h
  · rw [h', if_pos hc] at h
    obtain ⟨h1, l', h2, h3⟩ := sumF_sound hu hv hm qs _ _ h
    refine ⟨h1, ?_⟩
    have : l' = [] := by
      cases l' with
      | nil => rfl
      | cons _ _ => cases h2
    subst this
    rw [fB_eq] at h3
    cases d with
    | true =>
      simp [Mono.val_const] at h3 ⊢
      linarith
    | false =>
      simp at h3 ⊢
      linarith

end Verif.Coef
