import Verif.Calc.AgreeProps
/-!
# An example for both evaluators, and where they differ
-/

namespace Verif.Calc
open Verif.Text (Str isDigit natStr natValue)
open Verif.DataFile (Dec Lit)
open Spec

/-- A matrix of the example. -/
def sampleSt : St := .mat [[.var ['U'], .num ⟨5, -1⟩], [.neg (.int 1), .coef .xi 1 1]]

/-- How it is written: `{{U, .5},` and `{-1,coefxi[1,1]}}` in two lines. -/
def sampleText : Str := ['{', '{', 'U', ',', ' ', '.', '5', '}', ',', '\n', '{', '-', '1', ',', 'c', 'o', 'e', 'f', 'x', 'i', '[', '1', ',', '1', ']', '}', '}', '\n']

theorem Spec.Written.sign {bol : Bool} {br : Nat} {ts : List Tok} {s : Str} (c : Char) (hc : c ∈ ['(', ')', '*', '+', ',', '-', '/', '=', '[', ']']) (hs : c = '[' → NotAt isLetter s)
    (h : Written false br ts s) : Written bol br (.ch c :: ts) (c :: s) := by
  refine .tok (w := [c]) (.sign c ?_) hs ?_ ?_ (fun _ _ => rfl) h
  · simp only [List.mem_cons, List.not_mem_nil, or_false] at hc ⊢
    tauto
  · rintro he
    rw [Tok.ch.inj he] at hc
    exact absurd hc (by decide)
  · rintro he
    rw [Tok.ch.inj he] at hc
    exact absurd hc (by decide)

theorem Spec.Written.opening {bol : Bool} {br : Nat} {ts : List Tok} {s : Str} (h : Written false (br + 1) ts s) : Written bol br (.ch '{' :: ts) ('{' :: s) :=
  .tok (w := ['{']) (.sign '{' (by decide)) (by simp [MayFollow]) (fun _ => rfl) (by simp) (by simp) h

theorem Spec.Written.closing {bol : Bool} {br : Nat} {ts : List Tok} {s : Str} (h : Written false br ts s) : Written bol (br + 1) (.ch '}' :: ts) ('}' :: s) :=
  .tok (w := ['}']) (.sign '}' (by decide)) (by simp [MayFollow]) (by simp) (fun _ => rfl) (by simp) h

theorem Spec.Written.digit {bol : Bool} {br : Nat} {ts : List Tok} {c d : Char} {s : Str} (n : Nat) (hn : natStr n = [c]) (hb : n < 2 ^ 31)
    (hs : (isDigit d || d == '.' || d == 'e') = false) (h : Written false br ts (d :: s)) : Written bol br (.int n :: ts) (c :: d :: s) := by
  have hsp : Spells (.int n) [c] := hn ▸ Spells.int n hb
  exact .tok (w := [c]) hsp (by intro e he; simp only [List.head?_cons, Option.mem_def, Option.some.injEq] at he; rw [← he]; exact hs) (by simp) (by simp) (fun _ _ => rfl) h

theorem sample_written : Written true 0 (prPr [sampleSt]) sampleText :=
  .opening <| .opening <| .tok (w := ['U']) (.name 'U' [] (by decide) (by simp) (by decide)) (by simp [MayFollow, NotAt, isNameChar, alphabet, numerals]) (by simp) (by simp)
    (fun _ _ => rfl) <| .sign ',' (by decide) (by simp) <| .blank (.inl rfl) <|
  .tok (w := ['.', '5']) (.num ⟨false, [], some ['5'], none⟩ ['5'] (by simp [Lit.OK, Lit.frac, isDigit, Verif.DataFile.ExOK]) rfl rfl) (by simp [MayFollow, NotAt, isDigit]) (by simp) (by simp)
    (fun _ _ => rfl) <| .closing <| .sign ',' (by decide) (by simp) <| .inner <| .opening <| .sign '-' (by decide) (by simp) <|
  .digit 1 (by decide) (by decide) (by decide) <| .sign ',' (by decide) (by simp) <|
  .tok (w := ['c', 'o', 'e', 'f', 'x', 'i']) (.word _ .xi (by simp [keywords])) (by simp [MayFollow, NotAt, isNameChar, alphabet, numerals, Coef.tok]) (by simp [Coef.tok]) (by simp [Coef.tok]) (fun _ _ => rfl) <|
  .sign '[' (by decide) (by simp [NotAt, isLetter, alphabet]) <| .digit 1 (by decide) (by decide) (by decide) <| .sign ',' (by decide) (by simp) <|
  .digit 1 (by decide) (by decide) (by decide) <| .sign ']' (by decide) (by simp) <| .closing <| .closing <| .line <| .nil _ _

theorem sample_written' : Written true 0 (prPr ([.assign ['U'] (.int 3)] ++ [sampleSt])) (['U', '=', '3', '\n'] ++ sampleText) :=
  .tok (w := ['U']) (.name 'U' [] (by decide) (by simp) (by decide)) (by simp [MayFollow, NotAt, isNameChar, isLetter, alphabet, numerals]) (by simp) (by simp)
    (fun _ _ => rfl) <| .sign '=' (by decide) (by simp) <| .digit 3 (by decide) (by decide) (by decide) <| .line <| sample_written

/-- The hypotheses of `same_matrix` are met. -/
example : ∃ M, Verif.Inst.evaluateMatrix Verif.Inst.sampleEnv sampleText = .ok M ∧ M = ⟨2, 2, [[3, 1 / 2], [-1, 5]]⟩ ∧
    ∃ ev, calculator calcSample (['U', '=', '3', '\n'] ++ sampleText) = .parser .accept [ev] ∧ Shows ev M := by
  have h0 : Verif.Inst.evaluateMatrix Verif.Inst.sampleEnv sampleText = .ok ⟨2, 2, [[3, 1 / 2], [-1, 5]]⟩ := by decide +kernel
  refine ⟨_, h0, rfl, ?_⟩
  refine (same_matrix sample_same (Verif.Inst.decimal_ok Verif.Inst.sampleEnv rfl).1 (Function.update (fun _ => 0) ['U'] 3) [.assign ['U'] (.int 3)] sampleSt ['U', '=', '3', '\n'] sampleText
    ?_ rfl ?_ ?_ sample_written' sample_written (by decide) (by decide) _).1 h0
  · refine ⟨by simp, ?_⟩
    intro l hl e he
    simp only [List.mem_cons, List.not_mem_nil, or_false] at hl
    rcases hl with rfl | rfl <;> simp only [List.mem_cons, List.not_mem_nil, or_false] at he
    · rcases he with rfl | rfl
      · exact ⟨by simp only [Function.update_self]; decide +kernel, by decide⟩
      · trivial
    · rcases he with rfl | rfl
      · trivial
      · exact .inl rfl
  · intro y hy
    simp only [List.cons_append, List.nil_append, List.mem_cons, List.not_mem_nil, or_false] at hy
    rcases hy with rfl | rfl
    · exact ⟨trivial, by decide⟩
    · exact ⟨by simp [St.ok, sampleSt], by decide⟩
  · have := symbols_count (prPr ([.assign ['U'] (.int 3)] ++ [sampleSt]))
    have h : (symbols (prPr ([.assign ['U'] (.int 3)] ++ [sampleSt]))).length = 5 := by decide +kernel
    omega

/-! ### Differences -/

variable {K : Type} [Field K] [DecidableEq K]

theorem ign_line : Verif.Inst.Ign ['\n'] := .space '\n' [] (by decide) .nil

/-- **C121.** `Sqrt[x]`, where the argument is a variable: the square root of the variable in `instantiate`, zero in the calculator. -/
theorem argument_differs (I : Verif.Inst.Env K) (hP : Verif.Inst.Progress I) (E : Env K) (x : Char) (xs : Str) (hx : isLetter x = true) (hxs : ∀ d ∈ xs, isNameChar d = true)
    (hp : x :: xs ≠ "parse".toList) (v : K) (hv : I.lookup (x :: xs) = .ok v) :
    Verif.Inst.evaluateMatrix I (['S', 'q', 'r', 't'] ++ ('[' :: (x :: xs ++ ']' :: ['\n']))) = .ok ⟨1, 1, [[I.sqrt v]]⟩ ∧
    calculator E (['S', 'q', 'r', 't'] ++ ('[' :: (x :: xs ++ ']' :: ['\n']))) = .parser .accept [.num 0] := by
  refine ⟨?_, argument_dropped E 'S' ['q', 'r', 't'] x xs (by decide) (by decide) (by decide) hx hxs⟩
  have ht : Verif.Inst.Text I (.primary (.call ['S', 'q', 'r', 't'] [.var (x :: xs)])) (['S', 'q', 'r', 't'] ++ ('[' :: (x :: xs ++ [']']))) := by
    have := Verif.Inst.Text.call (E := I) (i := []) (j := []) (k := []) .nil (isName_of (c := 'S') (s := ['q', 'r', 't']) (by decide) (by decide)) .nil (.inr ⟨rfl, rfl⟩)
      (.argOne (of_primary (Verif.Inst.Text.var .nil (isName_of hx hxs)) 1)) .nil
    simpa using this
  have hev : (Verif.Inst.Ex.call ['S', 'q', 'r', 't'] [.var (x :: xs)]).eval I = .ok (I.sqrt v) := by
    simp only [Verif.Inst.Ex.eval, Verif.Inst.Ex.evalList, if_neg hp, hv]
    simp [Verif.Inst.Env.call]
  have hne : '!' ∉ ['S', 'q', 'r', 't'] ++ ('[' :: (x :: xs ++ [']'])) ++ ['\n'] := by
    intro h
    have h' : ∀ d : Char, isNameChar d = true → d ≠ '!' := by rintro d hd rfl; revert hd; decide
    have hx' : isNameChar x = true := by
      rw [nameChar_spec]; rw [letter_spec] at hx; simp [nameChar, hx]
    simp only [List.mem_append, List.mem_cons, List.not_mem_nil, or_false] at h
    rcases h with ((h | h | h | h) | h | (h | h) | h) | h
    · revert h; decide
    · revert h; decide
    · revert h; decide
    · revert h; decide
    · revert h; decide
    · exact h' x hx' h.symm
    · exact h' _ (hxs _ h) rfl
    · revert h; decide
    · revert h; decide
  have := Verif.Inst.evaluates I hP (.scalar (of_primary ht 1)) (.inl ign_line) ((Verif.Inst.escapes I _).2 hne)
  rw [(Verif.Inst.scalar_form I _ _ hev).1] at this
  simpa using this

/-- A name alone. -/
theorem name_text (I : Verif.Inst.Env K) (hP : Verif.Inst.Progress I) (E : Env K) (x : Char) (xs : Str) (hx : isLetter x = true) (hxs : ∀ d ∈ xs, isNameChar d = true)
    (hk : ∀ k ∈ keywords, k.1 ≠ x :: xs) :
    Verif.Inst.evaluateMatrix I (x :: xs ++ ['\n']) = (match I.lookup (x :: xs) with | .ok v => .ok ⟨1, 1, [[v]]⟩ | .error e => .error e) ∧
    calculator E (x :: xs ++ ['\n']) = .parser .accept [.num 0] := by
  have hp : x :: xs ≠ "parse".toList := fun e => hk ("parse".toList, none) (by simp [keywords]) e.symm
  constructor
  · have hne : '!' ∉ x :: xs ++ ['\n'] := by
      intro h
      have h' : ∀ d : Char, isNameChar d = true → d ≠ '!' := by rintro d hd rfl; revert hd; decide
      have hx' : isNameChar x = true := by
        rw [nameChar_spec]; rw [letter_spec] at hx; simp [nameChar, hx]
      simp only [List.mem_append, List.mem_cons, List.not_mem_nil, or_false] at h
      rcases h with (h | h) | h
      · exact h' x hx' h.symm
      · exact h' _ (hxs _ h) rfl
      · revert h; decide
    have ht : Verif.Inst.Text I (.primary (.var (x :: xs))) (x :: xs) := by
      simpa using Verif.Inst.Text.var (i := []) .nil (isName_of hx hxs)
    have := Verif.Inst.evaluates I hP (.scalar (of_primary ht 1)) (.inl ign_line) ((Verif.Inst.escapes I _).2 hne)
    rw [this]
    simp only [Verif.Inst.VEx.eval, Verif.Inst.Ex.eval, if_neg hp]
    cases I.lookup (x :: xs) <;> rfl
  · have hw : Written true 0 (prPr [.expr (.var (x :: xs))]) (x :: xs ++ ['\n']) :=
      .tok (w := x :: xs) (.name x xs hx hxs hk) (by simp [MayFollow, NotAt, isNameChar, alphabet, numerals]) (by simp) (by simp) (fun _ _ => rfl) (.line (.nil _ _))
    have hn : nameCount (prPr [.expr (.var (x :: xs))]) ≤ 196 := by
      have h1 := symbols_count (prPr [.expr (.var (x :: xs))])
      have h2 : (symbols (prPr [St.expr (.var (x :: xs))])).length ≤ 5 := (List.dedup_sublist _).length_le.trans (by simp [prPr, St.pr, Ex.pr])
      omega
    rw [calculator_evaluates E _ (by simp) (by intro y hy; simp at hy; subst hy; exact ⟨trivial, by simp [St.need, Ex.need]⟩) _ hw hn]
    rfl

/-- **C121.** A variable that is not set is an error in `instantiate`, zero in the calculator. -/
theorem unset_differs (I : Verif.Inst.Env K) (hP : Verif.Inst.Progress I) (E : Env K) (x : Char) (xs : Str) (hx : isLetter x = true) (hxs : ∀ d ∈ xs, isNameChar d = true)
    (hk : ∀ k ∈ keywords, k.1 ≠ x :: xs) (hu : I.vars.lookup (x :: xs) = none) (hpi : x :: xs ∉ [['P', 'i'], ['p', 'i']]) :
    Verif.Inst.evaluateMatrix I (x :: xs ++ ['\n']) = .error .unknownVariable ∧ calculator E (x :: xs ++ ['\n']) = .parser .accept [.num 0] := by
  obtain ⟨h1, h2⟩ := name_text I hP E x xs hx hxs hk
  refine ⟨?_, h2⟩
  have hl : I.lookup (x :: xs) = .error .unknownVariable := by
    unfold Verif.Inst.Env.lookup
    rw [if_neg ?_, hu]
    rintro (h | h) <;> rw [h] at hpi <;> exact hpi (by decide)
  rw [h1, hl]

/-- **C121.** `Pi` is known to `instantiate`; for the calculator it is a variable that is not set. -/
theorem pi_differs (I : Verif.Inst.Env K) (hP : Verif.Inst.Progress I) (E : Env K) :
    Verif.Inst.evaluateMatrix I ['P', 'i', '\n'] = .ok ⟨1, 1, [[I.pi]]⟩ ∧ calculator E ['P', 'i', '\n'] = .parser .accept [.num 0] := by
  obtain ⟨h1, h2⟩ := name_text I hP E 'P' ['i'] (by decide) (by decide) (by decide)
  exact ⟨h1, h2⟩

/-- **C121.** Division by zero is an error in `instantiate`; the calculator prints the numerator. -/
theorem division_differs {I : Verif.Inst.Env K} {E : Env K} (hS : Same I E) (hP : Verif.Inst.Progress I) :
    Verif.Inst.evaluateMatrix I ['1', '/', '0', '\n'] = .error .divZero ∧ calculator E ['1', '/', '0', '\n'] = .parser .accept [.divZero, .num ((1 : Nat) : K)] := by
  have ht : Verif.Inst.Text I (.product (.div (.num ((1 : Nat) : K)) (.num ((0 : Nat) : K)))) ['1', '/', '0'] :=
    Verif.Inst.Text.div (s := ['1']) (j := []) (t := ['0']) (.ofUnary (.ofPrimary (Verif.Inst.Text.num (i := []) .nil (hS.int 1)))) .nil
      (.ofPrimary (Verif.Inst.Text.num (i := []) .nil (hS.int 0)))
  have := Verif.Inst.evaluates I hP (.scalar (.ofProduct ht)) (.inl ign_line) ((Verif.Inst.escapes I _).2 (by decide))
  constructor
  · have e : ['1', '/', '0', '\n'] = ['1', '/', '0'] ++ ['\n'] := rfl
    rw [e, this]
    simp only [Verif.Inst.VEx.eval, Verif.Inst.Ex.eval, Nat.cast_zero, if_true]
    rfl
  · have hw : Written true 0 (prPr [.expr (.bin .div (.int 1) (.int 0))]) ['1', '/', '0', '\n'] :=
      .digit 1 (by decide) (by decide) (by decide) <| .sign '/' (by decide) (by simp) <| .digit 0 (by decide) (by decide) (by decide) <| .line <| .nil _ _
    rw [calculator_evaluates E _ (by simp) (by intro y hy; simp at hy; subst hy; exact ⟨trivial, by decide⟩) _ hw (by decide)]
    simp [result, execPr, St.exec, Ex.eval, andThen, Op.apply]

/-- **C121.** Rows of different lengths are an error in `instantiate`; the calculator prints them. -/
theorem ragged_differs {I : Verif.Inst.Env K} {E : Env K} (hS : Same I E) (hP : Verif.Inst.Progress I) :
    ∃ text, (∀ M, Verif.Inst.evaluateMatrix I text ≠ .ok M) ∧ calculator E text = .parser .accept [.mat [[((1 : Nat) : K)], [((2 : Nat) : K), ((3 : Nat) : K)]]] := by
  refine ⟨['{', '{', '1', '}', ',', '{', '2', ',', '3', '}', '}', '\n'], ?_, ?_⟩
  all_goals
    have hw : Written true 0 (prPr ([] ++ [.mat [[.int 1], [.int 2, .int 3]]])) ([] ++ ['{', '{', '1', '}', ',', '{', '2', ',', '3', '}', '}', '\n']) :=
      .opening <| .opening <| .digit 1 (by decide) (by decide) (by decide) <| .closing <| .sign ',' (by decide) (by simp) <| .opening <|
      .digit 2 (by decide) (by decide) (by decide) <| .sign ',' (by decide) (by simp) <| .digit 3 (by decide) (by decide) (by decide) <| .closing <| .closing <| .line <| .nil _ _
    have hok : ∀ y ∈ ([] ++ [St.mat [[.int 1], [.int 2, .int 3]]]), y.ok ∧ y.need ≤ 9997 := by
      intro y hy; simp at hy; subst hy; exact ⟨by simp [St.ok], by decide⟩
  · intro M hM
    have hc : (St.mat [[.int 1], [.int 2, .int 3]]).common I (fun _ => 0) := by
      refine ⟨by simp, ?_⟩
      intro l hl e he
      simp only [List.mem_cons, List.not_mem_nil, or_false] at hl
      rcases hl with rfl | rfl <;> simp only [List.mem_cons, List.not_mem_nil, or_false] at he
      · subst he; trivial
      · rcases he with rfl | rfl <;> trivial
    obtain ⟨ev, h1, h2⟩ := (same_matrix hS hP (fun _ => 0) [] _ [] _ hc rfl hok (by decide) hw hw (by decide) (by decide) M).1 hM
    rw [calculator_evaluates E _ (by simp) hok _ hw (by decide)] at h1
    have h3 : ev = .mat [[((1 : Nat) : K)], [((2 : Nat) : K), ((3 : Nat) : K)]] := by
      have h4 : (result E ([] ++ [St.mat [[.int 1], [.int 2, .int 3]]])).2 = [.mat [[((1 : Nat) : K)], [((2 : Nat) : K), ((3 : Nat) : K)]]] := rfl
      rw [h4] at h1
      injection h1 with _ h1
      exact (List.cons.inj h1).1.symm
    subst h3
    cases h2 with
    | mat _ c _ hc =>
      have a := hc _ (List.mem_cons_self)
      have b := hc _ (List.mem_cons_of_mem _ List.mem_cons_self)
      simp at a b
      omega
  · have := calculator_evaluates E _ (by simp) hok _ hw (by decide)
    exact this

end Verif.Calc
