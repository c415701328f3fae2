import Verif.Arun.Spec
import Verif.Adapt.StepProps
import Verif.NrgChain.Props
/-!
# Lemmas on `adapt`: the integration computes Runge-Kutta steps of the equation
-/

namespace Verif.Arun
open Verif.Tools Verif.Text Verif.Param Verif.Adapt
open Verif.NrgChain (World FS Op after)

variable {S : Type}

/-- The right-hand side has the values `R`, as long as the state is consistent. -/
structure Agrees (F : Rhs ℝ S) (R : ℝ → ℝ → ℝ) (I : S → Prop) : Prop where
  rhs : ∀ s, I s → ∀ x y, ∃ s', F.rhs s x y = some (R x y, s') ∧ I s'
  clear : ∀ s, I s → I (F.clear s)

theorem rk_agrees {F : Rhs ℝ S} {R : ℝ → ℝ → ℝ} {I : S → Prop} (h : Agrees F R I) {s : S} (hs : I s) (x y dx : ℝ) :
    ∃ s', rkStep F s x y dx = some (rk R x y dx, s') ∧ I s' := by
  obtain ⟨s1, a1, i1⟩ := h.rhs s hs x y
  obtain ⟨s2, a2, i2⟩ := h.rhs s1 i1 (x + dx / 2) (y + dx * R x y / 2)
  obtain ⟨s3, a3, i3⟩ := h.rhs s2 i2 (x + dx / 2) (y + dx * R (x + dx / 2) (y + dx * R x y / 2) / 2)
  obtain ⟨s4, a4, i4⟩ := h.rhs s3 i3 (x + dx) (y + dx * R (x + dx / 2) (y + dx * R (x + dx / 2) (y + dx * R x y / 2) / 2))
  refine ⟨s4, ?_, i4⟩
  simp only [rkStep, a1, a2, a3, a4, Option.bind_eq_bind, Option.bind_some, Option.pure_def, rk]

theorem heun_agrees {F : Rhs ℝ S} {R : ℝ → ℝ → ℝ} {I : S → Prop} (h : Agrees F R I) {s : S} (hs : I s) (x y dx : ℝ) :
    ∃ d s', heunStep F s x y dx = some (d, s') ∧ I s' := by
  obtain ⟨s1, a1, i1⟩ := h.rhs s hs x y
  obtain ⟨s2, a2, i2⟩ := h.rhs s1 i1 (x + dx) (y + dx * R x y)
  refine ⟨(dx * R x y + dx * R (x + dx) (y + dx * R x y)) / 2, s2, ?_, i2⟩
  simp only [heunStep, a1, a2, Option.bind_eq_bind, Option.bind_some, Option.pure_def]

/-- What is known of a step. -/
def StepOK (R : ℝ → ℝ → ℝ) (I : S → Prop) (x y dx : ℝ) (r : Adapt.Step ℝ S) : Prop :=
  I r.obj ∧ r.dy = rk R x y r.dx ∧ ∃ k : ℕ, r.dx = dx / 2 ^ k

theorem StepOK.half {R : ℝ → ℝ → ℝ} {I : S → Prop} {x y dx : ℝ} {r : Adapt.Step ℝ S} (h : StepOK R I x y (dx / 2) r) : StepOK R I x y dx r := by
  obtain ⟨a, b, k, c⟩ := h
  refine ⟨a, b, k + 1, ?_⟩
  rw [c, div_div, pow_succ, mul_comm]

theorem attempt_ok {F : Rhs ℝ S} {R : ℝ → ℝ → ℝ} {I : S → Prop} (h : Agrees F R I) {al : ℝ} {mc : Int} {x y : ℝ}
    {retry : Option (ℝ → ℝ → S → Except Err (Adapt.Step ℝ S))}
    (hr : ∀ f, retry = some f → ∀ dx me s r, I s → f dx me s = .ok r → StepOK R I x y dx r) {dx me : ℝ} {s : S} (hs : I s) {r : Adapt.Step ℝ S}
    (ha : attempt F al mc x y retry dx me s = .ok r) : StepOK R I x y dx r := by
  obtain ⟨s1, a1, i1⟩ := rk_agrees h (h.clear s hs) x y dx
  obtain ⟨dh, s2, a2, i2⟩ := heun_agrees h i1 x y dx
  have hdone : StepOK R I x y dx ⟨dx, rk R x y dx, max me |dh - rk R x y dx|, s2⟩ := ⟨i2, rfl, 0, by simp⟩
  unfold attempt at ha
  rw [a1] at ha
  dsimp only at ha
  rw [a2] at ha
  dsimp only at ha
  cases retry with
  | none =>
    cases hf1 : F.flag s1 <;> cases hf2 : F.flag s2 <;> rw [hf1, hf2] at ha <;> dsimp only at ha <;> split_ifs at ha <;>
      first | (cases ha; done) | (cases ha; exact hdone)
  | some f =>
    have key : ∀ me s, I s → f (dx / 2) me s = .ok r → StepOK R I x y dx r := fun me s hs hf => (hr f rfl _ _ _ _ hs hf).half
    cases hf1 : F.flag s1 with
    | true =>
      rw [hf1] at ha
      exact key _ _ i1 ha
    | false =>
      rw [hf1] at ha
      dsimp only at ha
      cases hf2 : F.flag s2 with
      | true =>
        rw [hf2] at ha
        exact key _ _ i2 ha
      | false =>
        rw [hf2] at ha
        dsimp only at ha
        split_ifs at ha
        · exact key _ _ i2 ha
        · cases ha
          exact hdone

theorem tryStep_ok {F : Rhs ℝ S} {R : ℝ → ℝ → ℝ} {I : S → Prop} (h : Agrees F R I) {al : ℝ} {mc : Int} {x y : ℝ} (n : ℕ) {dx me : ℝ} {s : S} (hs : I s)
    {r : Adapt.Step ℝ S} (ha : tryStep F al mc x y n dx me s = .ok r) : StepOK R I x y dx r := by
  induction n generalizing dx me s r with
  | zero => exact attempt_ok h (fun f hf => by cases hf) hs ha
  | succ n ih =>
    refine attempt_ok h (fun f hf dx me s r hs hr => ?_) hs ha
    cases hf
    exact ih hs hr

theorem timestep_ok {P : Par ℝ} {F : Rhs ℝ S} {R : ℝ → ℝ → ℝ} {I : S → Prop} (h : Agrees F R I) {c : Bool} {d H : ℝ} (hd : 0 < d) (hH : d ≤ H) {st st' : St ℝ S}
    (hs : I st.obj) (ha : timestep P F c d st = .ok st') : I st'.obj ∧ Step R H (st.x, st.y) (st'.x, st'.y) ∧ st'.x ≤ st.x + d := by
  unfold timestep at ha
  cases ht : tryStep F P.allowed (2 * P.maxSubdiv) st.x st.y P.maxSubdiv.toNat d st.maxErr st.obj with
  | error e => rw [ht] at ha; cases ha
  | ok r =>
    rw [ht] at ha
    dsimp only at ha
    split at ha
    · cases ha
    · cases ha
      obtain ⟨a, b, k, e⟩ := tryStep_ok h _ hs ht
      have hle : r.dx ≤ d := by rw [e]; exact half_pow_le k hd.le
      refine ⟨a, ⟨r.dx, by rw [e]; positivity, hle.trans hH, ?_⟩, by dsimp only; linarith⟩
      rw [b]

theorem intTo_ok {P : Par ℝ} {F : Rhs ℝ S} {R : ℝ → ℝ → ℝ} {I : S → Prop} (h : Agrees F R I) {c : Bool} {dx H xf : ℝ} (hd : 0 < dx) (hH : dx ≤ H) {cnt : ℕ}
    {st st' : St ℝ S} (hs : I st.obj) (hx : st.x < xf) (ha : intTo P F c dx xf cnt st = .ok st') :
    I st'.obj ∧ Relation.TransGen (Step R H) (st.x, st.y) (st'.x, st'.y) := by
  induction cnt generalizing st with
  | zero =>
    rw [intTo] at ha
    cases ht : timestep P F c (if st.x + dx < xf then dx else xf - st.x) st with
    | error e => rw [ht] at ha; cases ha
    | ok s => rw [ht] at ha; cases ha
  | succ cnt ih =>
    rw [intTo] at ha
    cases ht : timestep P F c (if st.x + dx < xf then dx else xf - st.x) st with
    | error e => rw [ht] at ha; cases ha
    | ok s1 =>
      rw [ht] at ha
      dsimp only at ha
      have hpos : 0 < (if st.x + dx < xf then dx else xf - st.x) := by split <;> linarith
      have hle : (if st.x + dx < xf then dx else xf - st.x) ≤ H := by split <;> linarith
      obtain ⟨i1, p1, q1⟩ := timestep_ok h hpos hle hs ht
      have hx1 : s1.x ≤ xf := q1.trans (by split <;> linarith)
      split at ha
      · rename_i hf
        have hlt : s1.x < xf := by
          rcases hx1.lt_or_eq with h' | h'
          · exact h'
          · rw [h', sub_self, abs_zero] at hf
            norm_num at hf
        obtain ⟨i2, p2⟩ := ih i1 hlt ha
        exact ⟨i2, Relation.TransGen.head p1 p2⟩
      · cases ha
        exact ⟨i1, .single p1⟩

theorem loop_ok {P : Par ℝ} {F : Rhs ℝ S} {R : ℝ → ℝ → ℝ} {I : S → Prop} (h : Agrees F R I) {c : Bool} {again : St ℝ S → Bool} {H : ℝ} (hs : 0 < P.outputStep)
    (hfast : 0 < P.dxFast) (hH : P.dxFast ≤ H) (n : ℕ) {lines out : Tab ℝ} {o : Adapt.Out ℝ S} {st : St ℝ S} (ho : OutInv o) (hdx : o.dx ≤ H) (hi : I o.st.obj)
    (ha : loop P F c again n lines o = .done out st) :
    I st.obj ∧ ∃ new, out = lines ++ new ∧ ((o.st.x, o.st.y) :: new).IsChain (Relation.TransGen (Step R H)) := by
  induction n generalizing lines o with
  | zero => cases ha
  | succ n ih =>
    rw [loop] at ha
    cases hr : Adapt.round P F c o with
    | error e => rw [hr] at ha; cases ha
    | ok o1 =>
      rw [hr] at ha
      dsimp only at ha
      obtain ⟨g1, g2, g3⟩ := round_inv hs hfast ho hr
      have step : I o1.st.obj ∧ Relation.TransGen (Step R H) (o.st.x, o.st.y) (o1.st.x, o1.st.y) ∧ o1.dx ≤ H := by
        unfold Adapt.round at hr
        dsimp only at hr
        cases hi1 : intTo P F c o.dx (o.target + P.outputStep) maxCnt o.st with
        | error e => rw [hi1] at hr; cases hr
        | ok s1 =>
          rw [hi1] at hr
          cases hr
          obtain ⟨a, b⟩ := intTo_ok h ho.dx hdx hi (by have := ho.le; linarith) hi1
          refine ⟨a, b, ?_⟩
          dsimp only
          split
          · exact hH
          · exact hdx
      obtain ⟨a, b, d⟩ := step
      split at ha
      · obtain ⟨a', new, e, ch⟩ := ih g1 d a ha
        exact ⟨a', (o1.st.x, o1.st.y) :: new, by rw [e, List.append_assoc]; rfl, .cons_cons b ch⟩
      · cases ha
        exact ⟨a, [(o1.st.x, o1.st.y)], rfl, .cons_cons b (.singleton _)⟩

/-! ## The two equations -/

theorem inv_flag {t : Tab ℝ} {s : LinState ℝ} (h : Inv t s) (b : Bool) : Inv t { s with flag := b } := fun i hi => h i hi

theorem inv_fresh (t : Tab ℝ) : Inv t fresh := fun i hi => by cases hi

theorem agreesF {Λ : ℝ} {m : Mesh ℝ} {g : ℝ → ℝ} {b : ℝ} (hm : MeshIs m g b) {rho ti : Tab ℝ} {total : ℝ} (hrho : Good rho)
    (hti : trapez rho = some (ti, total)) {ρ : ℝ → ℝ} (hρ : ∀ x, IsInterp rho x (ρ x)) :
    Agrees (rhsF (lam Λ) m rho ti) (energyEq Λ ρ (meshFn Λ g b)) (ObjsOK m rho) := by
  have hc := interp_continuous hrho hρ
  refine ⟨fun s hs x y => rhsF_value hm hrho hti hρ (fun a c => hc.intervalIntegrable a c) hs x y, fun s hs => ?_⟩
  exact ⟨inv_flag hs.hrho false, hs.hg, hs.hint1, hs.hint2⟩

theorem agreesG {Λ A : ℝ} {rho : Tab ℝ} (hrho : Good rho) {ρ : ℝ → ℝ} (hρ : ∀ x, IsInterp rho x (ρ x)) :
    Agrees (rhsG (lam Λ) A rho) (meshEq Λ A ρ) (Inv rho) :=
  ⟨fun s hs x y => rhsG_value hrho hρ hs x y, fun s hs => inv_flag hs false⟩

/-! ## Actions -/

theorem bind_ok {α β : Type} {a : Act α} {f : α → Act β} {ops : List Op} {y : β} (h : bind a f = (ops, .ok y)) :
    ∃ o1 x o2, a = (o1, .ok x) ∧ f x = (o2, .ok y) ∧ ops = o1 ++ o2 := by
  unfold bind at h
  obtain ⟨o, r⟩ := a
  cases r with
  | error e => cases h
  | ok x =>
    dsimp only at h
    obtain ⟨h1, h2⟩ := Prod.mk.inj h
    exact ⟨o, x, (f x).1, rfl, Prod.ext rfl h2, h1.symm⟩

theorem lift_ok {α : Type} {r : Except Stop α} {o : List Op} {x : α} (h : lift r = (o, .ok x)) : o = [] ∧ r = .ok x := by
  unfold lift at h
  obtain ⟨h1, h2⟩ := Prod.mk.inj h
  exact ⟨h1.symm, h2⟩

theorem bind_mem {α β : Type} {a : Act α} {f : α → Act β} {P : Op → Prop} (h1 : ∀ o ∈ a.1, P o) (h2 : ∀ x, ∀ o ∈ (f x).1, P o) : ∀ o ∈ (bind a f).1, P o := by
  unfold bind
  cases a.2 with
  | error e => exact h1
  | ok x =>
    intro o ho
    rcases List.mem_append.mp ho with h | h
    · exact h1 o h
    · exact h2 x o h

theorem writes_file (W : World) (fn : Str) (l : Tab ℝ) : ∀ o ∈ writes W fn l, o.file = fn := by
  intro o ho
  unfold writes at ho
  rcases List.mem_cons.mp ho with rfl | h
  · rfl
  · obtain ⟨e, -, rfl⟩ := List.mem_map.mp h
    rfl

theorem puts_text (W : World) (fn : Str) (l : Tab ℝ) (fs : FS) (c : Str) (hc : fs fn = some c) :
    after fs (l.map fun e => Op.put fn (line W e)) fn = some (c ++ fileText W l) := by
  induction l generalizing fs c with
  | nil => simpa [after, fileText] using hc
  | cons e l ih =>
    have h := ih (Op.run fs (.put fn (line W e))) (c ++ line W e) (by unfold Op.run; simp [hc])
    have e1 : after fs ((e :: l).map fun e => Op.put fn (line W e)) = after (Op.run fs (.put fn (line W e))) (l.map fun e => Op.put fn (line W e)) := rfl
    rw [e1, h]
    simp [fileText, line]

/-- The file after it was written. -/
theorem writes_text (W : World) (fn : Str) (l : Tab ℝ) (fs : FS) : after fs (writes W fn l) fn = some (fileText W l) := by
  have h := puts_text W fn l (Op.run fs (.start fn)) [] (by unfold Op.run; simp)
  rw [List.nil_append] at h
  exact h

theorem last_writes (W : World) (fn : Str) (l : Tab ℝ) (fs : FS) (ops : List Op) : after fs (ops ++ writes W fn l) fn = some (fileText W l) := by
  rw [NrgChain.after_append, writes_text]

end Verif.Arun
