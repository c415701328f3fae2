import Verif.Calc.Spec
/-!
# The automaton: steps, facts about the tables, and the evaluation of expressions
-/

namespace Verif.Calc
open Verif.Text (Str)
open Verif.DataFile (Dec)
open Spec

variable {K : Type} [Field K] [DecidableEq K]

/-- Several rounds. -/
inductive Steps (E : Env K) : Cfg K → Cfg K → Prop
  | refl (c : Cfg K) : Steps E c c
  | head {c d e : Cfg K} : step E c = .ok d → Steps E d e → Steps E c e

theorem Steps.one {E : Env K} {c d : Cfg K} (h : step E c = .ok d) : Steps E c d := .head h (.refl d)

theorem Steps.trans {E : Env K} {a b c : Cfg K} (h : Steps E a b) (h' : Steps E b c) : Steps E a c := by
  induction h with
  | refl => exact h'
  | head h1 _ ih => exact .head h1 (ih h')

theorem Steps.run {E : Env K} {c d : Cfg K} (h : Steps E c d) : ∃ k, ∀ n, run E (k + n) c = run E n d := by
  induction h with
  | refl c => exact ⟨0, fun n => by rw [Nat.zero_add]⟩
  | @head c d e h1 _ ih =>
    obtain ⟨k, hk⟩ := ih
    exact ⟨k + 1, fun n => by rw [show k + 1 + n = (k + n) + 1 by omega]; simp only [Calc.run]; rw [h1]; exact hk n⟩

/-- The computation `r` is carried out from `c`: either it succeeds and the automaton gets to the configuration given by `k`, or the automaton stops with a failed
assertion. In both cases the messages have been written. -/
def Reach (E : Env K) {α : Type} (c : Cfg K) (r : List (Ev K) × Option α) (k : α → Cfg K) : Prop :=
  (∀ x, r.2 = some x → Steps E c { k x with out := c.out ++ r.1 }) ∧
  (r.2 = none → ∃ d, Steps E c d ∧ step E d = .error .assert_ ∧ d.out = c.out ++ r.1)

theorem Reach.bind {E : Env K} {α β : Type} {c : Cfg K} {r : List (Ev K) × Option α} {k : α → Cfg K} {f : α → List (Ev K) × Option β} {k' : β → Cfg K}
    (h : Reach E c r k) (h' : ∀ x, r.2 = some x → Reach E { k x with out := c.out ++ r.1 } (f x) k') : Reach E c (andThen r f) k' := by
  obtain ⟨l, o⟩ := r
  cases o with
  | none =>
    refine ⟨fun x hx => ?_, fun _ => ?_⟩
    · simp [andThen] at hx
    · simpa [andThen] using h.2 rfl
  | some x =>
    have h1 := h.1 x rfl
    have h2 := h' x rfl
    refine ⟨fun y hy => ?_, fun hy => ?_⟩
    · have := h2.1 y hy
      simp only [andThen]
      have e : c.out ++ (l ++ (f x).1) = (c.out ++ l) ++ (f x).1 := (List.append_assoc _ _ _).symm
      rw [e]
      exact h1.trans this
    · obtain ⟨d, hd, hs, ho⟩ := h2.2 hy
      refine ⟨d, h1.trans hd, hs, ?_⟩
      simp only [andThen]
      rw [ho, List.append_assoc]

theorem Reach.before {E : Env K} {α : Type} {c c' : Cfg K} {r : List (Ev K) × Option α} {k : α → Cfg K} (h : Steps E c c') (ho : c'.out = c.out)
    (h' : Reach E c' r k) : Reach E c r k :=
  ⟨fun x hx => by rw [← ho]; exact h.trans (h'.1 x hx), fun hn => by
    obtain ⟨d, hd, hs, hd'⟩ := h'.2 hn
    exact ⟨d, h.trans hd, hs, by rw [hd', ho]⟩⟩

theorem Reach.after {E : Env K} {α : Type} {c : Cfg K} {r : List (Ev K) × Option α} {k k' : α → Cfg K} (h : Reach E c r k)
    (h' : ∀ x o, Steps E { k x with out := o } { k' x with out := o }) : Reach E c r k' :=
  ⟨fun x hx => (h.1 x hx).trans (h' x _), h.2⟩

theorem Reach.pure {E : Env K} {α : Type} {c : Cfg K} {k : α → Cfg K} (x : α) (h : Steps E c { k x with out := c.out }) : Reach E c ([], some x) k :=
  ⟨fun y hy => by cases hy; simpa using h, fun hn => by simp at hn⟩

theorem Reach.write {E : Env K} {α : Type} {c : Cfg K} {k : α → Cfg K} (x : α) (l : List (Ev K)) (h : Steps E c { k x with out := c.out ++ l }) :
    Reach E c (l, some x) k :=
  ⟨fun y hy => by cases hy; exact h, fun hn => by simp at hn⟩

/-! ### Single rounds -/

theorem step_shift (E : Env K) {s q : Nat} {v : Val K} {st : List (Nat × Val K)} {x : Tok} {r : List Tok} {vars : Str → K} {out : List (Ev K)}
    (hl : st.length + 1 < 10000) (hs : s ≠ 37) (ha : act s x.sym = .shift q) :
    step E ⟨(s, v) :: st, x :: r, vars, out⟩ = .ok ⟨(q, x.value E) :: (s, v) :: st, r, vars, out⟩ := by
  unfold step
  dsimp only
  rw [if_neg (by rw [List.length_cons]; omega), if_neg hs]
  simp only [look, ha]

theorem step_reduce (E : Env K) {s n : Nat} {v : Val K} {st : List (Nat × Val K)} {inp : List Tok} {vars : Str → K} {out : List (Ev K)}
    (hl : st.length + 1 < 10000) (hs : s ≠ 37) (ha : act s (look inp) = .reduce n) {top : List (Nat × Val K)} {p : Nat} {w : Val K} {below : List (Nat × Val K)}
    (hst : (s, v) :: st = top ++ (p, w) :: below) (htop : top.length = yyr2.getD n 0) :
    step E ⟨(s, v) :: st, inp, vars, out⟩ =
      match action E vars n (top.map Prod.snd) with
      | .error e => .error e
      | .ok (u, vars', evs) => .ok ⟨(goto_ p n, u) :: (p, w) :: below, inp, vars', out ++ evs⟩ := by
  unfold step
  dsimp only
  rw [if_neg (by rw [List.length_cons]; omega), if_neg hs]
  simp only [ha]
  rw [hst, ← htop, List.drop_left, List.take_left]
  dsimp only
  cases action E vars n (top.map Prod.snd) with
  | error e => rfl
  | ok r => rfl

theorem step_reduce_empty (E : Env K) {s n : Nat} {v : Val K} {st : List (Nat × Val K)} {inp : List Tok} {vars : Str → K} {out : List (Ev K)}
    (hl : st.length + 1 < 10000) (hs : s ≠ 37) (ha : act s (look inp) = .reduce n) (h0 : yyr2.getD n 0 = 0) :
    step E ⟨(s, v) :: st, inp, vars, out⟩ =
      match action E vars n [] with
      | .error e => .error e
      | .ok (u, vars', evs) => .ok ⟨(goto_ s n, u) :: (s, v) :: st, inp, vars', out ++ evs⟩ :=
  step_reduce E hl hs ha (top := []) (by simp) h0.symm

/-! ### Facts about the tables -/

/-- States in which an expression may begin. -/
def starts : List Nat := [0, 4, 12, 13, 14, 19, 20, 21, 31, 40, 41, 42, 43, 55, 74]

/-- The state after the expression. -/
def aft (s : Nat) : Nat := goto_ s 10

/-- Which operations are taken in this state: 1 all, 2 multiplication and division, 3 none. -/
def lev (s : Nat) : Nat := if s = 42 ∨ s = 43 ∨ s = 4 then 3 else if s = 40 ∨ s = 41 then 2 else 1

/-- The state after a name. -/
def nm (s : Nat) : Nat := if s = 0 ∨ s = 14 then 1 else 22

/-- What may follow an expression of level `p`. -/
def Follow (p t : Nat) : Prop := t < 29 ∧ t ≠ 22 ∧ t ≠ 23 ∧ t ≠ 25 ∧ (p ≤ 1 → t ≠ 9 ∧ t ≠ 10)

theorem Follow.mono {p q t : Nat} (h : Follow p t) (hpq : p ≤ q) : Follow q t := ⟨h.1, h.2.1, h.2.2.1, h.2.2.2.1, fun hq => h.2.2.2.2 (by omega)⟩

theorem start_facts : ∀ s ∈ starts, s ≠ 37 ∧ act s 5 = .shift 2 ∧ act s 6 = .shift 3 ∧ act s 7 = .shift 4 ∧ act s 23 = .shift 12 ∧ act s 4 = .shift (nm s) ∧
    act s 15 = .shift 6 ∧ act s 16 = .shift 7 ∧ act s 17 = .shift 8 ∧ act s 18 = .shift 9 ∧ act s 19 = .shift 10 ∧ act s 20 = .shift 11 := by decide

theorem aft_facts : ∀ s ∈ starts, aft s ≠ 37 ∧ (lev s ≤ 1 → act (aft s) 8 = .shift 41 ∧ act (aft s) 7 = .shift 40) ∧
    (lev s ≤ 2 → act (aft s) 9 = .shift 42 ∧ act (aft s) 10 = .shift 43) := by decide

theorem name_facts : ∀ t < 29, t ≠ 22 → t ≠ 23 → t ≠ 25 → act 1 t = .reduce 18 ∧ act 22 t = .reduce 18 := by decide

theorem sum_facts : ∀ t < 29, t ≠ 9 → t ≠ 10 → act 60 t = .reduce 11 ∧ act 61 t = .reduce 10 := by decide

theorem goto_expr (s n : Nat) (h1 : 10 ≤ n) (h2 : n ≤ 26) : goto_ s n = aft s := by
  have : ∀ n, n ≤ 26 → 10 ≤ n → yyr1.getD n 0 = 32 := by decide
  unfold aft goto_
  rw [this n h2 h1]
  rfl

theorem mem_starts (s : Nat) (h : s ∈ [4, 12, 19, 20, 21, 40, 41, 42, 43]) : s ∈ starts := by
  revert h; unfold starts; simp; omega

end Verif.Calc
