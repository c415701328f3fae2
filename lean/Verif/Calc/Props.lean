import Verif.Calc.Complete
import Mathlib.Algebra.Field.Rat
/-!
# Properties of the parser of the calculator
-/

namespace Verif.Calc
open Verif.Text (Str)
open Spec

variable {K : Type} [Field K] [DecidableEq K]

theorem run_mono (E : Env K) : ∀ (n : Nat) (c : Cfg K) (r : Fin × List (Ev K)), run E n c = some r → ∀ m, run E (n + m) c = some r
  | 0, _, _, h, _ => by simp [run] at h
  | n + 1, c, r, h, m => by
    rw [show n + 1 + m = (n + m) + 1 by omega]
    simp only [run] at h ⊢
    cases hs : step E c with
    | error e => rw [hs] at h; exact h
    | ok c' => rw [hs] at h; exact run_mono E n c' r h m

theorem run_unique (E : Env K) {n m : Nat} {c : Cfg K} {r r' : Fin × List (Ev K)} (h : run E n c = some r) (h' : run E m c = some r') : r = r' := by
  have h1 := run_mono E n c r h m
  have h2 := run_mono E m c r' h' n
  rw [Nat.add_comm, h2] at h1
  exact (Option.some.inj h1).symm

/-- The result of a program. -/
def Spec.result (E : Env K) (p : List St) : Fin × List (Ev K) :=
  match (execPr E (fun _ => 0) p).2 with
  | some _ => (.accept, (execPr E (fun _ => 0) p).1)
  | none => (.assert_, (execPr E (fun _ => 0) p).1)

theorem run_reaches (E : Env K) (p : List St) (hne : p ≠ []) (h : ∀ x ∈ p, x.ok ∧ x.need ≤ 9997) : ∃ n, run E n (Cfg.init (prPr p)) = some (result E p) := by
  have hr := prog_run E p hne [] h
  rw [List.append_nil] at hr
  unfold result
  cases he : (execPr E (fun _ => 0) p).2 with
  | some v =>
    obtain ⟨k, hk⟩ := (hr.1 v he).run
    refine ⟨k + 2, ?_⟩
    rw [hk 2]
    rfl
  | none =>
    obtain ⟨d, hd, hs, ho⟩ := hr.2 he
    obtain ⟨k, hk⟩ := hd.run
    refine ⟨k + 1, ?_⟩
    rw [hk 1]
    simp only [run]
    rw [hs, ho]
    rfl

/-- **C117.** The parser always ends, whatever the tokens, after a number of rounds proportional to the number of tokens, and never with an empty stack or a value of the
wrong kind; what it accepts belongs to the grammar. -/
theorem parser_ends (E : Env K) (ts : List Tok) (n : Nat) (hn : 10 * ts.length + 2 ≤ n) :
    ∃ f out, run E n (Cfg.init ts) = some (f, out) ∧ (f = .syntax_ ∨ f = .exhausted ∨ f = .assert_ ∨ (f = .accept ∧ IsProg ts)) :=
  run_ends E ts n _ (ok_init ts) (by rw [pot_init]; omega)

/-- **C116.** Every program is carried out: the values are those of the usual rules of precedence, statements are carried out in their order, and what has been written
before a missing coefficient stays. -/
theorem parser_evaluates (E : Env K) (p : List St) (hne : p ≠ []) (h : ∀ x ∈ p, x.ok ∧ x.need ≤ 9997) (n : Nat) (hn : 10 * (prPr p).length + 2 ≤ n) :
    run E n (Cfg.init (prPr p)) = some (result E p) := by
  obtain ⟨f, out, h1, _⟩ := parser_ends E (prPr p) n hn
  obtain ⟨m, hm⟩ := run_reaches E p hne h
  rw [h1, run_unique E h1 hm]

/-- An environment for examples: one channel with two sites. -/
def envEx : Env ℚ := ⟨fun d => d.1, 3, fun x => x, fun x => x, fun x => x, [6], [[1, 2]], [[3, 4]], [], [], []⟩

/-- `x = 1 + 2 * 3`, `x - 2 - 1`, `- x * coefxi[1, 1]`, `{x / 0, gammaPolCh[1]}`. -/
def progEx : List St :=
  [.assign ['x'] (.bin .add (.int 1) (.bin .mul (.int 2) (.int 3))), .expr (.bin .sub (.bin .sub (.var ['x']) (.int 2)) (.int 1)),
    .expr (.bin .mul (.neg (.var ['x'])) (.coef .xi 1 1)), .vec [.bin .div (.var ['x']) (.int 0), .gamma 1]]

example : progEx ≠ [] ∧ ∀ x ∈ progEx, x.ok ∧ x.need ≤ 9997 :=
  ⟨by simp [progEx], by intro x hx; simp [progEx] at hx; rcases hx with rfl | rfl | rfl | rfl <;> exact ⟨trivial, by decide⟩⟩

example : result envEx progEx = (.accept, [.num 4, .num (-14), .divZero, .vec [7, 2]]) := by decide +kernel

/-- A coefficient that does not exist. -/
example : result envEx [.expr (.int 1), .expr (.coef .xi 1 2), .expr (.int 2)] = (.assert_, [.num 1]) := by decide +kernel

/-! ### The stack for short inputs -/

/-- Symbols without text on the stack. -/
def slack (q : Nat) : Nat := if q = 15 ∨ q = 38 ∨ q = 37 ∨ q = 39 ∨ q = 59 then 2 else 1

theorem slack_ok : ∀ q < 86, ∀ p ∈ preds.getD q [], slack p ≤ slack q ∧ (stos q = 0 ∨ stos q = 31 → slack p + 1 ≤ slack q) := by decide +kernel

theorem expr_nonempty {z : List Tok} (h : IsExpr z) : 1 ≤ z.length := by
  cases h <;> simp <;> omega

theorem vec_nonempty {z : List Tok} (h : IsVec z) : 1 ≤ z.length := by
  cases h <;> simp

theorem good_length (r : Nat) {v : Val K} {z : List Tok} (h : Good r v z) (h0 : r ≠ 0) (h31 : r ≠ 31) : 1 ≤ z.length := by
  unfold Good at h
  split at h
  · exact absurd rfl h0
  · obtain ⟨_, _, rfl⟩ := h; simp
  · obtain ⟨_, _, _, rfl⟩ := h; simp
  · obtain ⟨_, _, rfl⟩ := h; simp
  · exact absurd h id
  · cases h <;> simp <;> omega
  · exact absurd rfl h31
  · obtain ⟨_, _, h⟩ := h; exact expr_nonempty h
  · obtain ⟨_, _, h⟩ := h
    cases h with
    | one h => exact expr_nonempty h
    | cons h _ => have := expr_nonempty h; simp; omega
  · obtain ⟨_, _, h⟩ := h; exact vec_nonempty h
  · obtain ⟨_, _, h⟩ := h
    cases h with
    | one h => exact vec_nonempty h
    | cons h _ => have := vec_nonempty h; simp; omega
  · obtain ⟨_, _, h⟩ := h
    cases h <;> simp
  · rw [h]; simp

theorem inv_length : ∀ {st : List (Nat × Val K)} {q : Nat} {v : Val K} {y : List Tok}, Inv ((q, v) :: st) y → st.length + 1 ≤ y.length + slack q := by
  intro st
  induction st with
  | nil => intro q v y h; simp [slack]; split <;> omega
  | cons e st ih =>
    intro q v y h
    cases h with
    | @push _ p _ w _ y z hi hq hp hg =>
      have h1 := ih hi
      have h2 := slack_ok q hq p hp
      by_cases h0 : stos q = 0 ∨ stos q = 31
      · have := h2.2 h0
        simp only [List.length_cons, List.length_append]
        omega
      · have := good_length _ hg (fun h => h0 (.inl h)) (fun h => h0 (.inr h))
        simp only [List.length_cons, List.length_append]
        omega

theorem not_exhausted (E : Env K) (ts : List Tok) (hl : ts.length ≤ 9995) : ∀ (n : Nat) (c : Cfg K) (out : List (Ev K)), Ok ts c → run E n c ≠ some (.exhausted, out)
  | 0, _, _, _ => by simp [run]
  | n + 1, c, out, hok => by
    rcases step_ok E ts c hok with ⟨c', h1, h2, _⟩ | ⟨f, h1, h2⟩
    · simp only [run]; rw [h1]; exact not_exhausted E ts hl n c' out h2
    · simp only [run]; rw [h1]
      intro h
      simp only [Option.some.injEq, Prod.mk.injEq] at h
      have hlong : 10000 ≤ c.stack.length := by
        rcases h2 with h' | h' | h' | h'
        · rw [h.1] at h'; exact absurd h' (by decide)
        · exact h'.2
        · rw [h.1] at h'; exact absurd h' (by decide)
        · rw [h.1] at h'; exact absurd h'.1 (by decide)
      obtain ⟨y, hi, hy, _⟩ := hok
      have hlen : y.length ≤ ts.length := by rw [← hy]; simp
      cases hs : c.stack with
      | nil => rw [hs] at hlong; simp at hlong
      | cons e st =>
        obtain ⟨q, v⟩ := e
        rw [hs] at hi hlong
        have := inv_length hi
        have : slack q ≤ 2 := by unfold slack; split <;> omega
        simp only [List.length_cons] at hlong
        omega

/-- **C117.** For every input of at most 9995 tokens: either it is the text of a program, and then the result is that of this program, or it is not, and then the parser
reports a syntax error, unless a missing coefficient is found before. -/
theorem parser_decides (E : Env K) (ts : List Tok) (hl : ts.length ≤ 9995) (n : Nat) (hn : 10 * ts.length + 2 ≤ n) :
    (∃ p : List St, p ≠ [] ∧ (∀ x ∈ p, x.ok) ∧ prPr p = ts ∧ run E n (Cfg.init ts) = some (result E p)) ∨
    ((¬ ∃ p : List St, p ≠ [] ∧ prPr p = ts) ∧ ∃ out, run E n (Cfg.init ts) = some (.syntax_, out) ∨ run E n (Cfg.init ts) = some (.assert_, out)) := by
  by_cases hp : IsProg ts
  · obtain ⟨p, hne, hok, rfl⟩ := prog_tree hp
    refine .inl ⟨p, hne, hok, rfl, parser_evaluates E p hne (fun x hx => ⟨hok x hx, ?_⟩) n hn⟩
    have := stmt_len x
    have := prog_len p x hx
    omega
  · refine .inr ⟨fun ⟨p, hne, h⟩ => hp (h ▸ tree_prog p hne), ?_⟩
    obtain ⟨f, out, h1, h2⟩ := parser_ends E ts n hn
    rcases h2 with rfl | rfl | rfl | ⟨_, h2⟩
    · exact ⟨out, .inl h1⟩
    · exact absurd h1 (not_exhausted E ts hl n _ out (ok_init ts))
    · exact ⟨out, .inr h1⟩
    · exact absurd h2 hp

/-- **C117.** The texts of programs are exactly those of the grammar. -/
theorem grammar_trees (ts : List Tok) : IsProg ts ↔ ∃ p : List St, p ≠ [] ∧ (∀ x ∈ p, x.ok) ∧ prPr p = ts :=
  ⟨prog_tree, fun ⟨p, hne, _, h⟩ => h ▸ tree_prog p hne⟩

theorem step_out (E : Env K) (c c' : Cfg K) (h : step E c = .ok c') : c.out <+: c'.out := by
  unfold step at h
  split at h
  · simp at h
  · split at h
    · simp at h
    · split at h
      · simp at h
      · split at h
        · simp at h
        · split at h <;> (simp only [Except.ok.injEq] at h; subst h; exact List.prefix_refl _)
        · split at h
          · simp at h
          · split at h
            · simp at h
            · simp only [Except.ok.injEq] at h
              subst h
              exact List.prefix_append _ _

theorem run_out (E : Env K) : ∀ (n : Nat) (c : Cfg K) (f : Fin) (out : List (Ev K)), run E n c = some (f, out) → c.out <+: out
  | 0, _, _, _, h => by simp [run] at h
  | n + 1, c, f, out, h => by
    simp only [run] at h
    cases hs : step E c with
    | error e =>
      rw [hs] at h
      simp only [Option.some.injEq, Prod.mk.injEq] at h
      exact h.2 ▸ List.prefix_refl _
    | ok c' => rw [hs] at h; exact (step_out E c c' hs).trans (run_out E n c' f out h)

/-- **C117.** What comes later does not change the results of the first lines. -/
theorem parser_prefix (E : Env K) (p : List St) (hne : p ≠ []) (h : ∀ x ∈ p, x.ok ∧ x.need ≤ 9997) (rest : List Tok) (n : Nat) (f : Fin) (out : List (Ev K))
    (hr : run E n (Cfg.init (prPr p ++ rest)) = some (f, out)) :
    match (execPr E (fun _ => 0) p).2 with
    | some _ => (execPr E (fun _ => 0) p).1 <+: out
    | none => (f, out) = (.assert_, (execPr E (fun _ => 0) p).1) := by
  have hR := prog_run E p hne rest h
  cases he : (execPr E (fun _ => 0) p).2 with
  | some v =>
    obtain ⟨k, hk⟩ := (hR.1 v he).run
    have h1 := run_mono E n _ _ hr k
    rw [Nat.add_comm, hk] at h1
    exact run_out E _ _ _ _ h1
  | none =>
    obtain ⟨d, hd, hs, ho⟩ := hR.2 he
    obtain ⟨k, hk⟩ := hd.run
    have h1 : run E (k + 1) (Cfg.init (prPr p ++ rest)) = some (.assert_, d.out) := by
      rw [hk 1]; simp only [run]; rw [hs]
    rw [run_unique E hr h1, ho]
    rfl

end Verif.Calc
