import Verif.Calc.Text
import Mathlib.Algebra.Field.Rat
/-!
# What a user of the calculator would not expect
-/

namespace Verif.Calc
open Verif.Text (Str isDigit natStr natValue)
open Verif.DataFile (Dec Lit Expo)
open Spec

variable {K : Type} [Field K] [DecidableEq K]

/-- From tokens to the outcome. -/
theorem calculator_tokens (E : Env K) (text : Str) (p : List St) (hne : p ≠ []) (h : ∀ x ∈ p, x.ok ∧ x.need ≤ 9997) (hl : lex text = .ok (prPr p))
    (hn : (symbols (prPr p)).length ≤ 200) : calculator E text = .parser (result E p).1 (result E p).2 := by
  rw [calculator, hl]
  dsimp only
  rw [if_neg (by omega), parser_evaluates E p hne h _ (by omega)]

/-- A section header. -/
theorem longest_section (bol : Bool) (c : Char) (n r : Str) (hc : letter c = true) (hn : ∀ d ∈ n, nameChar d = true) :
    longest (matches_ bol ('[' :: (c :: n ++ ']' :: r))) = ((c :: n).length + 2, .section_) := by
  have hnl : nameLen (c :: n ++ ']' :: r) = (c :: n).length := nameLen_text c n _ hc hn (by intro d t h; rw [← (List.cons.inj h).1]; decide)
  have hsec : sectionLen ('[' :: (c :: n ++ ']' :: r)) = (c :: n).length + 2 := by
    rw [sectionLen, if_pos ⟨rfl, by rw [hnl]; simp⟩, hnl, List.drop_left]
    dsimp only
    rw [if_pos rfl]
  have e : matches_ bol ('[' :: (c :: n ++ ']' :: r)) = ([(0, .comment), (0, .gamma), (0, .xi), (0, .zeta), (0, .delta), (0, .kappa), (0, .v), (0, .parse), (0, .system),
      (0, .integer), (0, .short), (0, .decimal), (0, .blank)] : List (Nat × Rule)) ++ ((c :: n).length + 2, .section_) ::
      [(0, .text), (0, .name), (0, .stop), (0, .opening), (0, .closing), (0, .newline), (1, .other)] := by
    rw [← hsec]
    cases bol <;> rfl
  rw [e]
  refine longest_at _ _ _ ?_ _ ?_
  · intro x hx
    simp only [List.mem_cons, List.not_mem_nil, or_false] at hx
    rcases hx with rfl | rfl | rfl | rfl | rfl | rfl | rfl <;> dsimp only <;> omega
  · intro x hx
    simp only [List.mem_cons, List.not_mem_nil, or_false] at hx
    rcases hx with rfl | rfl | rfl | rfl | rfl | rfl | rfl | rfl | rfl | rfl | rfl | rfl | rfl <;> dsimp only <;> omega

/-- **C119.** `f[x]`, where the argument is the name of a variable, is the value of the variable `f`: the scanner takes `[x]` for the header of a section and drops it. -/
theorem argument_dropped (E : Env K) (f : Char) (fs : Str) (x : Char) (xs : Str) (hf : isLetter f = true) (hfs : ∀ d ∈ fs, isNameChar d = true)
    (hk : ∀ k ∈ keywords, k.1 ≠ f :: fs) (hx : isLetter x = true) (hxs : ∀ d ∈ xs, isNameChar d = true) :
    calculator E (f :: fs ++ ('[' :: (x :: xs ++ ']' :: ['\n']))) = .parser .accept [.num 0] := by
  rw [letter_spec] at hf hx
  rw [nameChar_spec] at hfs hxs
  have hl : lex (f :: fs ++ ('[' :: (x :: xs ++ ']' :: ['\n']))) = .ok (prPr [.expr (.var (f :: fs))]) := by
    rw [lex, show (f :: fs ++ ('[' :: (x :: xs ++ ']' :: ['\n']))).length + 1 = ((f :: fs).length + xs.length + 2) + 1 + 1 + 1 by simp; omega,
      lex_after _ _ _ _ _ _ (by simp) (longest_name true f fs ('[' :: (x :: xs ++ ']' :: ['\n'])) (by simp [NotAt, nameChar, letter, isDigit]) (by simp) hf hfs hk)]
    have h2 := longest_section false x xs ['\n'] hx hxs
    rw [show '[' :: (x :: xs ++ ']' :: ['\n']) = ('[' :: (x :: xs ++ [']'])) ++ ['\n'] by simp] at h2 ⊢
    simp only [move, after]
    rw [lex_after _ _ _ _ _ .section_ (by simp) (by rw [h2]; simp)]
    simp only [move, after, lex_line]
    rfl
  rw [calculator_tokens E _ _ (by simp) (by intro y hy; simp at hy; subst hy; exact ⟨trivial, by simp [St.need, Ex.need]⟩) hl ?_]
  · rfl
  · have : (symbols (prPr [St.expr (.var (f :: fs))])).length ≤ 5 := (List.dedup_sublist _).length_le.trans (by simp [prPr, St.pr, Ex.pr])
    omega

theorem wordLen_le (w : String) (n r : Str) (e : Char) (hw : e ∉ w.toList) (hn : n ≠ []) : wordLen w (n ++ e :: r) ≤ n.length := by
  by_cases h : w.toList = n
  · unfold wordLen
    split
    · rw [← h, String.length_toList]
    · exact Nat.zero_le _
  · exact (wordLen_name w n (e :: r) (by intro d hd; simp only [List.head?_cons, Option.mem_def, Option.some.injEq] at hd; rw [← hd]; exact hw) h hn).le

/-- A definition as in a parameter file. -/
theorem longest_text (bol : Bool) (c : Char) (n : Str) (d : Char) (t r : Str) (hc : letter c = true) (hn : ∀ e ∈ n, nameChar e = true) (hd : letter d = true)
    (ht : '\n' ∉ t) : longest (matches_ bol (c :: n ++ '=' :: d :: (t ++ '\n' :: r))) = ((c :: n).length + 2 + t.length, .text) := by
  generalize hr' : d :: (t ++ '\n' :: r) = r'
  have hnl : nameLen (c :: n ++ '=' :: r') = (c :: n).length := nameLen_text c n _ hc hn (by intro d t h; rw [← (List.cons.inj h).1]; decide)
  have hdrop : (c :: n ++ '=' :: r').drop (c :: n).length = '=' :: r' := List.drop_left
  have hw : ∀ w : String, '=' ∉ w.toList → wordLen w (c :: n ++ '=' :: r') ≤ (c :: n).length := fun w h => wordLen_le w (c :: n) r' '=' h (by simp)
  have hdig : digits (c :: n ++ '=' :: r') = 0 := by
    rw [List.cons_append, digits, List.takeWhile_cons, letter_not_digit hc]; rfl
  have hpoint : pointLen (c :: n ++ '=' :: r') = 0 := by
    have e0 : (c :: n ++ '=' :: r').drop 0 = c :: (n ++ '=' :: r') := rfl
    rw [pointLen, hdig, e0]
    split
    · rename_i t h
      exact absurd (List.cons.inj h).1 (ne_of_letter hc (by decide))
    · rfl
  have hshort : shortLen (c :: n ++ '=' :: r') = 0 := by
    cases h : n ++ '=' :: r' with
    | nil => rw [List.cons_append, h]; rfl
    | cons d t =>
      rw [List.cons_append, h, shortLen, if_neg]
      rw [letter_not_digit hc]; simp
  have hsec : sectionLen (c :: n ++ '=' :: r') = 0 := by
    rw [List.cons_append, sectionLen, if_neg]
    intro h
    exact ne_of_letter hc (by decide) h.1
  have htext : textLen (c :: n ++ '=' :: r') = (c :: n).length + 2 + t.length := by
    rw [textLen, hnl, if_neg (by simp), hdrop, ← hr']
    dsimp only
    rw [if_pos ⟨rfl, hd⟩, takeWhile_all t (by intro e he; simp only [bne_iff_ne]; rintro rfl; exact ht he) _ (by intro e u h; rw [← (List.cons.inj h).1]; decide)]
  have hhead : (c :: n ++ '=' :: r').headD ' ' = c := rfl
  unfold matches_
  rw [hnl, hdig, hpoint, hshort, hsec, htext, hhead]
  refine longest_at _ _ _ ?_ (_ :: _ :: _ :: _ :: _ :: _ :: _ :: _ :: _ :: _ :: _ :: _ :: _ :: _ :: []) ?_
  · intro x hx
    simp only [List.mem_cons, List.not_mem_nil, or_false] at hx
    rcases hx with rfl | rfl | rfl | rfl | rfl | rfl <;> dsimp only <;> first | omega | (split <;> omega)
  · intro x hx
    simp only [List.mem_cons, List.not_mem_nil, or_false] at hx
    rcases hx with rfl | rfl | rfl | rfl | rfl | rfl | rfl | rfl | rfl | rfl | rfl | rfl | rfl | rfl <;> dsimp only
    · rw [if_neg]; · omega
      simp [ne_of_letter hc (show letter '#' = false by decide)]
    · have := hw "gammaPolCh" (by decide); omega
    · have := hw "coefxi" (by decide); omega
    · have := hw "coefzeta" (by decide); omega
    · have := hw "coefdelta" (by decide); omega
    · have := hw "coefkappa" (by decide); omega
    · have := hw "coefV" (by decide); omega
    · have := hw "parse" (by decide); omega
    · rw [if_neg]; · omega
      simp [ne_of_letter hc (show letter '!' = false by decide)]
    · omega
    · omega
    · omega
    · rw [if_neg]; · omega
      simp [ne_of_letter hc (show letter ' ' = false by decide), ne_of_letter hc (show letter '\t' = false by decide)]
    · omega

/-- **C119.** `a=b…` without blanks, where the right side begins with a letter, is no assignment: the scanner takes it for a line of a parameter file and drops it. After
it the variable is what it was before, zero if it was not set. -/
theorem assignment_dropped (E : Env K) (a : Char) (as : Str) (b : Char) (bs : Str) (ha : isLetter a = true) (has : ∀ d ∈ as, isNameChar d = true)
    (hk : ∀ k ∈ keywords, k.1 ≠ a :: as) (hb : isLetter b = true) (hbs : '\n' ∉ bs) :
    calculator E (a :: as ++ '=' :: b :: (bs ++ '\n' :: (a :: as ++ '\n' :: []))) = .parser .accept [.num 0] := by
  rw [letter_spec] at ha hb
  rw [nameChar_spec] at has
  have hl : lex (a :: as ++ '=' :: b :: (bs ++ '\n' :: (a :: as ++ '\n' :: []))) = .ok (prPr [.empty, .expr (.var (a :: as))]) := by
    rw [lex, show (a :: as ++ '=' :: b :: (bs ++ '\n' :: (a :: as ++ '\n' :: []))).length + 1 = ((a :: as).length + bs.length + as.length + 2) + 1 + 1 + 1 + 1 by simp; omega]
    have h2 := longest_text true a as b bs (a :: as ++ '\n' :: []) ha has hb hbs
    rw [show a :: as ++ '=' :: b :: (bs ++ '\n' :: (a :: as ++ '\n' :: [])) = (a :: as ++ '=' :: b :: bs) ++ '\n' :: (a :: as ++ '\n' :: []) by simp] at h2 ⊢
    rw [lex_after _ _ _ _ _ .text (by simp) (by rw [h2]; simp; omega)]
    simp only [move, after, lex_line]
    rw [if_neg (Nat.lt_irrefl 0)]
    simp only [after]
    rw [lex_after _ _ _ _ _ _ (by simp) (longest_name true a as ['\n'] (by simp [NotAt, nameChar, letter, isDigit]) (by simp) ha has hk)]
    simp only [move, after, lex_line]
    rfl
  rw [calculator_tokens E _ _ (by simp) (by intro y hy; simp at hy; rcases hy with rfl | rfl <;> exact ⟨trivial, by simp [St.need, Ex.need]⟩) hl ?_]
  · rfl
  · have : (symbols (prPr [St.empty, St.expr (.var (a :: as))])).length ≤ 5 := (List.dedup_sublist _).length_le.trans (by simp [prPr, St.pr, Ex.pr])
    omega

/-- **C119.** An integer that does not fit into an `int` is undefined behaviour of `atoi`. -/
theorem integer_range (E : Env K) (n : Nat) (hn : 2 ^ 31 ≤ n) (r : Str) : calculator E (natStr n ++ ' ' :: r) = .scanner .range := by
  have hl : lex (natStr n ++ ' ' :: r) = .error .range := by
    rw [lex, lex_after _ _ _ _ _ _ (Verif.Text.natStr_ne_nil n) (longest_int true n (' ' :: r) (by simp [NotAt, isDigit])), move, Verif.Text.natStr_value, if_neg (by omega)]
    rfl
  rw [calculator, hl]

/-- **C119.** Numbers with an exponent but without a point are read only if there is one digit before the exponent; a point alone is a number. -/
theorem numbers_misread : lex "5e3\n".toList = .ok [.num ⟨5, 3⟩, .ch '\n'] ∧ lex "12e3\n".toList = .ok [.int 12, .name "e3".toList, .ch '\n'] ∧
    lex ".\n".toList = .ok [.num ⟨0, 0⟩, .ch '\n'] := by decide +kernel

/-- **C119.** A name that was never set has the value zero, without a message. -/
theorem unset_zero (E : Env K) (s : Str) : run E 22 (Cfg.init (prPr [.expr (.var s)])) = some (.accept, [.num 0]) := by
  rw [parser_evaluates E _ (by simp) (by intro y hy; simp at hy; subst hy; exact ⟨trivial, by simp [St.need, Ex.need]⟩) 22 (by simp [prPr, St.pr, Ex.pr])]
  rfl

/-- **C119.** After a division by zero the numerator is used as the result, and the calculation goes on. -/
theorem division_by_zero (E : Env K) (n : Nat) : run E 42 (Cfg.init (prPr [.expr (.bin .div (.int n) (.int 0))])) = some (.accept, [.divZero, .num (n : K)]) := by
  rw [parser_evaluates E _ (by simp) (by intro y hy; simp at hy; subst hy; exact ⟨trivial, by simp [St.need, Ex.need, Op.prec]⟩) 42 (by simp [prPr, St.pr, Ex.pr, paren, Op.prec])]
  simp [result, execPr, St.exec, Ex.eval, andThen, Op.apply]

/-- **C119.** Rows of different lengths are accepted as a matrix. -/
theorem ragged_matrix (E : Env K) : run E 122 (Cfg.init (prPr [.mat [[.int 1], [.int 2, .int 3]]])) = some (.accept, [.mat [[((1 : Nat) : K)], [((2 : Nat) : K), ((3 : Nat) : K)]]]) := by
  rw [parser_evaluates E _ (by simp) (by intro y hy; simp at hy; subst hy; exact ⟨by simp [St.ok], by decide⟩) 122 (by decide)]
  rfl

theorem step_full (E : Env K) {s : Nat} {v : Val K} {st : List (Nat × Val K)} {inp : List Tok} {vars : Str → K} {out : List (Ev K)} (h : 10000 ≤ st.length + 1) :
    step E ⟨(s, v) :: st, inp, vars, out⟩ = .error .exhausted := by
  unfold step
  dsimp only
  rw [if_pos (by simpa using h)]

/-- Elements pile up on the stack. -/
theorem pile (E : Env K) (vars : Str → K) (out : List (Ev K)) (rest : List Tok) : ∀ (l : List Nat) (s : Nat) (v : Val K) (st : List (Nat × Val K)), l ≠ [] → s = 13 ∨ s = 55 →
    10001 ≤ st.length + 1 + 2 * l.length →
    ∃ d, Steps E ⟨(s, v) :: st, commas (l.map fun n => [.int n]) ++ rest, vars, out⟩ d ∧ step E d = .error .exhausted ∧ d.out = out
  | [], _, _, _, h, _, _ => absurd rfl h
  | n :: l, s, v, st, _, hs, hlen => by
    by_cases h1 : 10000 ≤ st.length + 1
    · exact ⟨_, .refl _, step_full E h1, rfl⟩
    have hs' : s ∈ starts := by rcases hs with rfl | rfl <;> decide
    have hf := start_facts s hs'
    obtain ⟨r, hr⟩ : ∃ r, commas ((n :: l).map fun n => [.int n]) ++ rest = .int n :: r := by
      cases l with
      | nil => exact ⟨rest, rfl⟩
      | cons m l => exact ⟨.ch ',' :: commas ((m :: l).map fun n => [.int n]) ++ rest, rfl⟩
    have hst : Steps E ⟨(s, v) :: st, commas ((n :: l).map fun n => [.int n]) ++ rest, vars, out⟩ ⟨(3, .int n) :: (s, v) :: st, r, vars, out⟩ := by
      rw [hr]
      exact .one (step_shift E (by omega) hf.1 hf.2.2.1)
    by_cases h2 : 10000 ≤ st.length + 2
    · exact ⟨_, hst, step_full E (by simpa using h2), rfl⟩
    cases l with
    | nil => simp at hlen; omega
    | cons m l =>
      have hr' : r = .ch ',' :: (commas ((m :: l).map fun n => [.int n]) ++ rest) := by
        have : commas ((n :: m :: l).map fun n => [.int n]) ++ rest = .int n :: .ch ',' :: (commas ((m :: l).map fun n => [.int n]) ++ rest) := rfl
        rw [this] at hr
        exact (List.cons.inj hr).2.symm
      have hred : step E ⟨(3, .int n) :: (s, v) :: st, r, vars, out⟩ = .ok ⟨(aft s, .num (n : K)) :: (s, v) :: st, r, vars, out⟩ := by
        have := reduce_ok E (s := 3) (n := 17) (v := Tok.value E (.int n)) (st := (s, v) :: st) (inp := r) (vars := vars) (out := out) (by simp only [List.length_cons]; omega)
          (by decide) rfl (top := [(3, Tok.value E (.int n))]) (p := s) (w := v) (below := st) rfl rfl (by decide) (by decide) (x := (n : K)) (evs := []) rfl
        rw [List.append_nil] at this
        exact this
      have hsh : step E ⟨(aft s, .num (n : K)) :: (s, v) :: st, r, vars, out⟩ =
          .ok ⟨(55, .none) :: (aft s, .num (n : K)) :: (s, v) :: st, commas ((m :: l).map fun n => [.int n]) ++ rest, vars, out⟩ := by
        rw [hr']
        refine step_shift E (by simp only [List.length_cons]; omega) ?_ ?_ <;> rcases hs with rfl | rfl <;> decide
      obtain ⟨d, hd1, hd2, hd3⟩ := pile E vars out rest (m :: l) 55 .none ((aft s, .num (n : K)) :: (s, v) :: st) (by simp) (.inr rfl)
        (by simp only [List.length_cons] at hlen ⊢; omega)
      exact ⟨d, hst.trans (.head hred (.head hsh hd1)), hd2, hd3⟩

/-- **C119.** A vector with 5000 or more elements cannot be written: the parser runs out of memory, because the elements of a list are collected from its end. -/
theorem long_vector (E : Env K) (l : List Nat) (hl : 5000 ≤ l.length) (n : Nat) (hn : 10 * (prPr [.vec (l.map .int)]).length + 2 ≤ n) :
    run E n (Cfg.init (prPr [.vec (l.map .int)])) = some (.exhausted, []) := by
  obtain ⟨f, out, h1, _⟩ := parser_ends E (prPr [.vec (l.map .int)]) n hn
  have hp : prPr [.vec (l.map .int)] = .ch '{' :: (commas (l.map fun n => [.int n]) ++ [.ch '}', .ch '\n']) := by
    simp [prPr, St.pr, braces, List.map_map, Function.comp_def, Ex.pr]
  obtain ⟨d, hd1, hd2, hd3⟩ := pile E (fun _ => 0) [] [.ch '}', .ch '\n'] l 13 (Tok.value E (.ch '{')) [(0, .none)] (by rintro rfl; simp at hl) (.inl rfl) (by simp; omega)
  have hs : Steps E (Cfg.init (prPr [.vec (l.map .int)])) d := by
    rw [hp]
    exact .head (step_shift E (by simp) (by decide) (show act 0 27 = _ by decide)) hd1
  obtain ⟨k, hk⟩ := hs.run
  have h2 : run E (k + 1) (Cfg.init (prPr [.vec (l.map .int)])) = some (.exhausted, []) := by
    rw [hk 1]; simp only [run]; rw [hd2, hd3]
  rw [h1, run_unique E h1 h2]

example : ∃ l : List Nat, 5000 ≤ l.length := ⟨List.replicate 5000 1, (List.length_replicate).ge⟩

/-- **C119.** What is not a program is reported, but the exit status is zero, as for a correct program; a last line without end of line is computed and printed before it is
rejected; an empty text is an error. -/
theorem errors_status (E : Env K) :
    calculator E "1+\n".toList = .parser .syntax_ [] ∧ calculator E "1".toList = .parser .syntax_ [.num ((1 : Nat) : K)] ∧ calculator E [] = .parser .syntax_ [] ∧
    Fin.status .syntax_ = Fin.status .accept := by
  have h1 : lex "1+\n".toList = .ok [.int 1, .ch '+', .ch '\n'] := by decide +kernel
  have h2 : lex "1".toList = .ok [.int 1] := by decide +kernel
  have h3 : lex [] = .ok [] := by decide +kernel
  refine ⟨?_, ?_, ?_, rfl⟩
  · rw [calculator, h1]; rfl
  · rw [calculator, h2]; rfl
  · rw [calculator, h3]; rfl

/-- **C119.** A closing brace without an opening one ends the program. -/
theorem brace_mismatch (E : Env K) (r : Str) : calculator E ('}' :: r) = .scanner .brace := by
  have hl : lex ('}' :: r) = .error .brace := by
    rw [lex, lex_one _ true 0 '}' _ .closing (longest_close true _), move, if_pos rfl]
    rfl
  rw [calculator, hl]

end Verif.Calc
