import Verif.Calc.Lex
import Verif.Calc.Props
/-!
# Properties of the calculator on texts
-/

namespace Verif.Calc
open Verif.Text (Str isDigit natStr natValue)
open Verif.DataFile (Dec Lit Expo)
open Spec

variable {K : Type} [Field K] [DecidableEq K]

/-- **C118.** The tokens of a text are these tokens, with or without blanks between them, as long as what follows a token could not belong to it; ends of lines count only
outside braces, comments do not count. -/
theorem lex_written {ts : List Tok} {s : Str} (h : Written true 0 ts s) : lex s = .ok ts := lexLoop_written h _ (Nat.lt_succ_self _)

example : Written true 0 [.ch '\n', .name ['x'], .ch '=', .int 12, .ch '\n', .ch '{', .num ⟨5, -1⟩, .ch '}', .ch '\n'] ['#', ' ', 'x', '\n', 'x', '=', '1', '2', '\n', '{', '\n', '.', '5', '\t', '}', '\n', '$'] :=
  .comment (t := [' ', 'x']) (by decide) <| .line <|
  .tok (w := ['x']) (.name 'x' [] (by decide) (by simp) (by decide)) (by simp [MayFollow, NotAt, isLetter, isNameChar, alphabet, numerals, isDigit]) (by decide) (by decide) (fun _ _ => rfl) <|
  .tok (w := ['=']) (.sign '=' (by decide)) (by simp [MayFollow, NotAt, isLetter, isNameChar, alphabet, numerals, isDigit]) (by decide) (by decide) (fun _ _ => rfl) <|
  .tok (w := ['1', '2']) (.int 12 (by decide)) (by simp [MayFollow, NotAt, isLetter, isNameChar, alphabet, numerals, isDigit]) (by decide) (by decide) (fun _ _ => rfl) <| .line <|
  .tok (w := ['{']) (.sign '{' (by decide)) (by simp [MayFollow, NotAt, isLetter, isNameChar, alphabet, numerals, isDigit]) (fun _ => rfl) (by decide) (by decide) <| .inner <|
  .tok (w := ['.', '5']) (.num ⟨false, [], some ['5'], none⟩ ['5'] (by simp [Lit.OK, Lit.frac, isDigit, Verif.DataFile.ExOK]) rfl rfl) (by simp [MayFollow, NotAt, isLetter, isNameChar, alphabet, numerals, isDigit]) (by decide) (by decide)
    (fun _ _ => rfl) <| .blank (Or.inr rfl) <|
  .tok (w := ['}']) (.sign '}' (by decide)) (by simp [MayFollow, NotAt, isLetter, isNameChar, alphabet, numerals, isDigit]) (by decide) (fun _ => rfl) (by decide) <| .line <| .stop _ _ _

/-- What can be put before a text. -/
def Ext (br : Nat) (l : List Tok) : Prop := ∀ rest s, Written false br rest s → ∃ s', Written false br (l ++ rest) s'

theorem Ext.append {br : Nat} {a b : List Tok} (ha : Ext br a) (hb : Ext br b) : Ext br (a ++ b) := by
  intro rest s h
  obtain ⟨s1, h1⟩ := hb rest s h
  obtain ⟨s2, h2⟩ := ha _ s1 h1
  exact ⟨s2, by rw [List.append_assoc]; exact h2⟩

/-- A blank may follow every token. -/
theorem sep_blank (t : Tok) (s : Str) : MayFollow t (' ' :: s) := by
  have h : ∀ p : Char → Bool, p ' ' = false → NotAt p (' ' :: s) := by
    intro p hp c hc
    simp only [List.head?_cons, Option.mem_def, Option.some.injEq] at hc
    rw [← hc]; exact hp
  cases t with
  | ch c => exact fun _ => h _ (by decide)
  | int n => exact h _ (by decide)
  | num d => exact h _ (by decide)
  | _ => exact ⟨h _ (by decide), fun e => by simp at e⟩

theorem Ext.tok {br : Nat} {t : Tok} (h : ∃ w, Spells t w) (h1 : t ≠ .ch '{') (h2 : t ≠ .ch '}') : Ext br [t] := by
  intro rest s hr
  obtain ⟨w, hw⟩ := h
  exact ⟨_, .tok hw (sep_blank t s) (fun h => absurd h h1) (fun h => absurd h h2) (fun _ _ => rfl) (.blank (Or.inl rfl) hr)⟩

theorem Ext.cons {br : Nat} {t : Tok} {l : List Tok} (h : ∃ w, Spells t w) (h1 : t ≠ .ch '{') (h2 : t ≠ .ch '}') (hl : Ext br l) : Ext br (t :: l) :=
  Ext.append (Ext.tok h h1 h2) hl

theorem Ext.nil {br : Nat} : Ext br [] := fun _ s h => ⟨s, h⟩

theorem Ext.braces {br : Nat} {l : List Tok} (hl : Ext (br + 1) l) : Ext br (.ch '{' :: (l ++ [.ch '}'])) := by
  intro rest s h
  have h1 : Written false (br + 1) (.ch '}' :: rest) (['}'] ++ s) := .tok (.sign '}' (by decide)) (by simp [MayFollow]) (by simp) (fun _ => rfl) (by simp) h
  obtain ⟨s2, h2⟩ := hl _ _ h1
  refine ⟨['{'] ++ s2, ?_⟩
  rw [List.cons_append, List.append_assoc]
  exact .tok (.sign '{' (by decide)) (by simp [MayFollow]) (fun _ => rfl) (by simp) (by simp) h2

theorem sign_spelled (c : Char) (h : c ∈ ['(', ')', '*', '+', ',', '-', '/', '=', '[', ']', '{', '}']) : ∃ w, Spells (.ch c) w := ⟨_, .sign c h⟩

theorem expr_ext {a : List Tok} (h : IsExpr a) (hs : ∀ t ∈ a, ∃ w, Spells t w) (br : Nat) : Ext br a := by
  induction h with
  | num d => exact Ext.tok (hs _ (by simp)) (by simp) (by simp)
  | int n => exact Ext.tok (hs _ (by simp)) (by simp) (by simp)
  | var s => exact Ext.tok (hs _ (by simp)) (by simp) (by simp)
  | bin o _ _ ih1 ih2 =>
    refine Ext.append (ih1 fun t ht => hs t (by simp [ht])) (Ext.cons (hs _ (by simp)) ?_ ?_ (ih2 fun t ht => hs t (by simp [ht]))) <;> cases o <;> decide
  | neg _ ih => exact Ext.cons (hs _ (by simp)) (by decide) (by decide) (ih fun t ht => hs t (by simp [ht]))
  | par _ ih =>
    exact Ext.cons (hs _ (by simp)) (by decide) (by decide) (Ext.append (ih fun t ht => hs t (by simp [ht])) (Ext.tok (hs _ (by simp)) (by decide) (by decide)))
  | call s sq _ ih =>
    refine Ext.cons (hs _ (by simp)) (by simp) (by simp) (Ext.cons (hs _ (by simp)) ?_ ?_ (Ext.append (ih fun t ht => hs t (by simp [ht])) (Ext.tok (hs _ (by simp)) ?_ ?_)))
      <;> cases sq <;> decide
  | gamma i =>
    exact Ext.cons (hs _ (by simp)) (by simp) (by simp) (Ext.cons (hs _ (by simp)) (by decide) (by decide) (Ext.cons (hs _ (by simp)) (by simp) (by simp)
      (Ext.tok (hs _ (by simp)) (by decide) (by decide))))
  | coef k i j =>
    exact Ext.cons (hs _ (by simp)) (by cases k <;> decide) (by cases k <;> decide) (Ext.cons (hs _ (by simp)) (by decide) (by decide)
      (Ext.cons (hs _ (by simp)) (by simp) (by simp) (Ext.cons (hs _ (by simp)) (by decide) (by decide) (Ext.cons (hs _ (by simp)) (by simp) (by simp)
        (Ext.tok (hs _ (by simp)) (by decide) (by decide))))))

theorem list_ext {a : List Tok} (h : IsList a) (hs : ∀ t ∈ a, ∃ w, Spells t w) (br : Nat) : Ext br a := by
  induction h with
  | one h => exact expr_ext h hs br
  | cons h _ ih => exact Ext.append (expr_ext h (fun t ht => hs t (by simp [ht])) br) (Ext.cons (hs _ (by simp)) (by decide) (by decide) (ih fun t ht => hs t (by simp [ht])))

theorem vec_ext {a : List Tok} (h : IsVec a) (hs : ∀ t ∈ a, ∃ w, Spells t w) (br : Nat) : Ext br a := by
  cases h with
  | nil => exact Ext.braces (l := []) Ext.nil
  | list h => exact Ext.braces (list_ext h (fun t ht => hs t (by simp [ht])) _)

theorem rows_ext {a : List Tok} (h : IsRows a) (hs : ∀ t ∈ a, ∃ w, Spells t w) (br : Nat) : Ext br a := by
  induction h with
  | one h => exact vec_ext h hs br
  | cons h _ ih => exact Ext.append (vec_ext h (fun t ht => hs t (by simp [ht])) br) (Ext.cons (hs _ (by simp)) (by decide) (by decide) (ih fun t ht => hs t (by simp [ht])))

theorem mat_ext {a : List Tok} (h : IsMat a) (hs : ∀ t ∈ a, ∃ w, Spells t w) (br : Nat) : Ext br a := by
  cases h with
  | nil => exact Ext.braces (l := [.ch '{', .ch '}']) (Ext.braces (l := []) Ext.nil)
  | rows h => exact Ext.braces (rows_ext h (fun t ht => hs t (by simp [ht])) _)

theorem stmt_ext {a : List Tok} (h : IsStmt a) (hs : ∀ t ∈ a, ∃ w, Spells t w) (br : Nat) : Ext br a := by
  cases h with
  | assign s h => exact Ext.cons (hs _ (by simp)) (by simp) (by simp) (Ext.cons (hs _ (by simp)) (by decide) (by decide) (expr_ext h (fun t ht => hs t (by simp [ht])) br))
  | expr h => exact expr_ext h hs br
  | vec h => exact vec_ext h hs br
  | mat h => exact mat_ext h hs br
  | empty => exact Ext.nil

/-- No statement contains an end of line. -/
def Inline (a : List Tok) : Prop := ∀ t ∈ a, t ≠ .ch '\n'

theorem Inline.append {a b : List Tok} (ha : Inline a) (hb : Inline b) : Inline (a ++ b) := by
  intro t ht
  rcases List.mem_append.1 ht with h | h
  · exact ha t h
  · exact hb t h

theorem Inline.cons {t : Tok} {b : List Tok} (ha : t ≠ .ch '\n') (hb : Inline b) : Inline (t :: b) := by
  intro u hu
  rcases List.mem_cons.1 hu with rfl | h
  · exact ha
  · exact hb u h

theorem Inline.one {t : Tok} (ha : t ≠ .ch '\n') : Inline [t] := Inline.cons ha (by intro t h; cases h)

theorem expr_inline {a : List Tok} (h : IsExpr a) : Inline a := by
  induction h with
  | num d => exact Inline.one (by simp)
  | int n => exact Inline.one (by simp)
  | var s => exact Inline.one (by simp)
  | bin o _ _ ih1 ih2 => exact Inline.append ih1 (Inline.cons (by cases o <;> decide) ih2)
  | neg _ ih => exact Inline.cons (by decide) ih
  | par _ ih => exact Inline.cons (by decide) (Inline.append ih (Inline.one (by decide)))
  | call s sq _ ih => exact Inline.cons (by simp) (Inline.cons (by cases sq <;> decide) (Inline.append ih (Inline.one (by cases sq <;> decide))))
  | gamma i => intro t ht; simp at ht; rcases ht with rfl | rfl | rfl | rfl <;> simp
  | coef k i j => intro t ht; simp at ht; rcases ht with rfl | rfl | rfl | rfl | rfl | rfl <;> first | (cases k <;> decide) | simp

theorem list_inline {a : List Tok} (h : IsList a) : Inline a := by
  induction h with
  | one h => exact expr_inline h
  | cons h _ ih => exact Inline.append (expr_inline h) (Inline.cons (by decide) ih)

theorem vec_inline {a : List Tok} (h : IsVec a) : Inline a := by
  cases h with
  | nil => intro t ht; simp at ht; rcases ht with rfl | rfl <;> decide
  | list h => exact Inline.cons (by decide) (Inline.append (list_inline h) (Inline.one (by decide)))

theorem rows_inline {a : List Tok} (h : IsRows a) : Inline a := by
  induction h with
  | one h => exact vec_inline h
  | cons h _ ih => exact Inline.append (vec_inline h) (Inline.cons (by decide) ih)

theorem stmt_inline {a : List Tok} (h : IsStmt a) : Inline a := by
  cases h with
  | assign s h => exact Inline.cons (by simp) (Inline.cons (by decide) (expr_inline h))
  | expr h => exact expr_inline h
  | vec h => exact vec_inline h
  | mat h =>
    cases h with
    | nil => intro t ht; simp at ht; rcases ht with rfl | rfl | rfl | rfl <;> decide
    | rows h => exact Inline.cons (by decide) (Inline.append (rows_inline h) (Inline.one (by decide)))
  | empty => intro t h; cases h

theorem line_ext {a : List Tok} (h : IsStmt a) (hs : ∀ t ∈ a ++ [.ch '\n'], t ≠ .ch '\n' → ∃ w, Spells t w) : Ext 0 (a ++ [.ch '\n']) :=
  Ext.append (stmt_ext h (fun t ht => hs t (by simp [ht]) (stmt_inline h t ht)) 0) fun _ s hr => ⟨'\n' :: ' ' :: s, .line (.blank (Or.inl rfl) hr)⟩

theorem prog_ext {ts : List Tok} (h : IsProg ts) (hs : ∀ t ∈ ts, t ≠ .ch '\n' → ∃ w, Spells t w) : Ext 0 ts := by
  induction h with
  | one h => exact line_ext h hs
  | snoc _ h ih => exact Ext.append (ih fun t ht => hs t (by simp [ht])) (line_ext h fun t ht => hs t (by rw [List.mem_append]; exact .inr ht))

/-- **C118.** Every program whose names and numbers can be spelled has a text. -/
theorem program_text {ts : List Tok} (h : IsProg ts) (hs : ∀ t ∈ ts, t ≠ .ch '\n' → ∃ w, Spells t w) : ∃ s, Written true 0 ts s := by
  obtain ⟨s, hs⟩ := prog_ext h hs [] [] (.nil _ 0)
  exact ⟨' ' :: s, .blank (Or.inl rfl) (by rw [List.append_nil] at hs; exact hs)⟩

/-- The table of symbols has the functions and the other names. -/
theorem symbols_count (ts : List Tok) : (symbols ts).length = nameCount ts + 4 := by
  rw [symbols, ← List.card_toFinset, List.toFinset_append, nameCount, ← Finset.union_sdiff_self_eq_union, Finset.card_union_of_disjoint Finset.disjoint_sdiff, Nat.add_comm]
  rfl

/-- **C118.** From the text to the results: the calculator carries out every program with at most 196 names besides the functions. -/
theorem calculator_evaluates (E : Env K) (p : List St) (hne : p ≠ []) (h : ∀ x ∈ p, x.ok ∧ x.need ≤ 9997) (text : Str) (ht : Written true 0 (prPr p) text)
    (hn : nameCount (prPr p) ≤ 196) : calculator E text = .parser (result E p).1 (result E p).2 := by
  rw [calculator, lex_written ht]
  dsimp only
  rw [if_neg (by rw [symbols_count]; omega), parser_evaluates E p hne h _ (by omega)]

/-- **C118.** With more names nothing is computed. -/
theorem calculator_symbols (E : Env K) (ts : List Tok) (text : Str) (ht : Written true 0 ts text) (hn : 196 < nameCount ts) : calculator E text = .symbols := by
  rw [calculator, lex_written ht]
  dsimp only
  rw [if_pos (by rw [symbols_count]; omega)]

end Verif.Calc
