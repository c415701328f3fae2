import Verif.Inst.Fuel
/-!
# The parser on texts of the grammar
-/

namespace Verif.Inst
open Verif.Text

variable {K : Type} [Field K] [DecidableEq K]

/-- With enough fuel the result is `r`. -/
def Conv {α : Type} (f : ℕ → α) (r : α) : Prop := ∃ n, ∀ m, n ≤ m → f m = r

/-- With enough fuel the result is that of `e`, and what remains is `rest` up to ignored text. -/
def ConvU {α : Type} (f : ℕ → Res α) (e : Except Err α) (rest : Str) : Prop :=
  match e with
  | .error x => Conv f (.error x)
  | .ok v => ∃ rest', skip rest' = skip rest ∧ Conv f (.ok (v, rest'))

theorem conv_of_succ {α : Type} {f g : ℕ → α} {r : α} (h : Conv g r) (hfg : ∀ n, g n = r → f (n + 1) = r) : Conv f r := by
  obtain ⟨n, hn⟩ := h
  refine ⟨n + 1, fun m hm => ?_⟩
  obtain ⟨m, rfl⟩ : ∃ m', m = m' + 1 := ⟨m - 1, by omega⟩
  exact hfg m (hn m (by omega))

theorem conv_of_succ2 {α β : Type} {f : ℕ → α} {g : ℕ → β} {h : ℕ → α} {r : α} {q : β} (hg : Conv g q) (hh : Conv h r)
    (hfg : ∀ n, g n = q → h n = r → f (n + 1) = r) : Conv f r := by
  obtain ⟨n, hn⟩ := hg
  obtain ⟨k, hk⟩ := hh
  refine ⟨n + k + 1, fun m hm => ?_⟩
  obtain ⟨m, rfl⟩ : ∃ m', m = m' + 1 := ⟨m - 1, by omega⟩
  exact hfg m (hn m (by omega)) (hk m (by omega))

theorem conv_succ_of {α β : Type} {f : ℕ → α} {g : ℕ → β} {q : β} {r : α} (hg : Conv g q) (hfg : ∀ n, g n = q → f (n + 1) = r) : Conv f r := by
  obtain ⟨N, hN⟩ := hg
  refine ⟨N + 1, fun m hm => ?_⟩
  obtain ⟨m, rfl⟩ : ∃ m', m = m' + 1 := ⟨m - 1, by omega⟩
  exact hfg m (hN m (by omega))

theorem conv_const {α : Type} {f : ℕ → α} {r : α} (h : ∀ n, f (n + 1) = r) : Conv f r :=
  ⟨1, fun m hm => by obtain ⟨m, rfl⟩ : ∃ m', m = m' + 1 := ⟨m - 1, by omega⟩; exact h m⟩

theorem exprLoop_congr (E : Env K) {s t : Str} (h : skip s = skip t) (n : ℕ) (v : K) : pExprLoop E n v s = pExprLoop E n v t := by
  cases n with
  | zero => rfl
  | succ n => rw [pExprLoop, pExprLoop, consume_congr _ h, consume_congr _ h, h]

theorem productLoop_congr (E : Env K) {s t : Str} (h : skip s = skip t) (n : ℕ) (v : K) : pProductLoop E n v s = pProductLoop E n v t := by
  cases n with
  | zero => rfl
  | succ n => rw [pProductLoop, pProductLoop, consume_congr _ h, consume_congr _ h, h]

/-! ### What can follow -/

/-- Characters that would continue a name as a function call. -/
def openers : List Char := ['(', '[']

/-- Characters that would continue a product. -/
def mulOps : List Char := ['(', '[', '*', '/']

/-- Characters that would continue an expression. -/
def allOps : List Char := ['(', '[', '*', '/', '+', '-']

/-- Characters that no expression begins with. -/
def closers : List Char := [')', ']', '}', ',']

theorem after_mono {cs ds : List Char} {s : Str} (h : NotNext cs s) (hd : ∀ c ∈ ds, c ∈ cs) : NotNext ds s :=
  fun c hc => h c (hd c hc)

theorem after_here {i : Str} (hi : Ign i) {c : Char} {cs : List Char} (t : Str) (h : isSpace c = false) (h' : c ≠ '#') (hc : c ∉ cs) :
    NotNext cs (i ++ c :: t) := by
  intro d hd
  apply consume_other hi t h h'
  rintro rfl; exact hc hd

theorem delimited_here {i : Str} (hi : Ign i) {c : Char} (t : Str) (hc : c ∈ delimiters) : Delimited (i ++ c :: t) := by
  right
  cases hi with
  | nil => exact ⟨c, t, rfl, Or.inr (Or.inr hc)⟩
  | space d s hd _ => exact ⟨d, s ++ c :: t, rfl, Or.inl hd⟩
  | comment u s _ _ => exact ⟨'#', u ++ '\n' :: s ++ c :: t, by simp, Or.inr (Or.inl rfl)⟩

theorem delimited_ignEnd {s : Str} (h : IgnEnd s) : Delimited s := by
  have key : ∀ i, Ign i → ∀ t, i ≠ [] → Delimited (i ++ t) := by
    intro i hi t hne
    cases hi with
    | nil => exact absurd rfl hne
    | space d u hd _ => exact Or.inr ⟨d, u ++ t, rfl, Or.inl hd⟩
    | comment u v _ _ => exact Or.inr ⟨'#', u ++ '\n' :: v ++ t, by simp, Or.inr (Or.inl rfl)⟩
  rcases h with h | ⟨i, t, hi, ht, rfl⟩
  · by_cases hne : s = []
    · exact Or.inl hne
    · simpa using key s h [] hne
  · by_cases hne : i = []
    · subst hne; exact Or.inr ⟨'#', t, rfl, Or.inr (Or.inl rfl)⟩
    · exact key i hi _ hne

/-! ### How a text begins -/

/-- The characters an expression can begin with. -/
def Start (c : Char) : Prop := isDigit c = true ∨ c = '.' ∨ isAlpha c = true ∨ c = '_' ∨ c = '('

theorem start_props {c : Char} (h : Start c) :
    isSpace c = false ∧ c ≠ '#' ∧ c ∉ closers ∧ c ≠ '{' ∧ c ≠ '+' ∧ c ≠ '-' := by
  have key : c.toNat = 46 ∨ c.toNat = 95 ∨ c.toNat = 40 ∨ (48 ≤ c.toNat ∧ c.toNat ≤ 57) ∨
      (65 ≤ c.toNat ∧ c.toNat ≤ 90) ∨ (97 ≤ c.toNat ∧ c.toNat ≤ 122) := by
    rcases h with h | rfl | h | rfl | rfl
    · simp only [isDigit, Bool.and_eq_true, decide_eq_true_eq] at h; omega
    · left; rfl
    · simp only [isAlpha, Bool.or_eq_true, Bool.and_eq_true, decide_eq_true_eq] at h; omega
    · right; left; rfl
    · right; right; left; rfl
  refine ⟨?_, ?_, ?_, ?_, ?_, ?_⟩
  · by_contra hs
    simp only [Bool.not_eq_false, isSpace, Bool.or_eq_true, decide_eq_true_eq] at hs
    rcases hs with ((((rfl | rfl) | rfl) | rfl) | rfl) | rfl <;> revert key <;> decide
  · rintro rfl; revert key; decide
  · simp only [closers, List.mem_cons, List.not_mem_nil, or_false]
    rintro (rfl | rfl | rfl | rfl) <;> revert key <;> decide
  · rintro rfl; revert key; decide
  · rintro rfl; revert key; decide
  · rintro rfl; revert key; decide

/-- How a phrase of each kind begins. -/
def Begins : Cat K → Char → Prop
  | .primary _, c => Start c
  | _, c => Start c ∨ c = '+' ∨ c = '-'

theorem text_begins {E : Env K} {cat : Cat K} {s : Str} (h : Text E cat s) :
    ∃ i c t, Ign i ∧ s = i ++ c :: t ∧ Begins cat c := by
  induction h with
  | @num i t v hi ht =>
    obtain ⟨⟨c, u, rfl, hc⟩, _⟩ := ht
    exact ⟨i, c, u, hi, rfl, by rcases hc with hc | hc; exacts [Or.inl hc, Or.inr (Or.inl hc)]⟩
  | @var i nm hi hn =>
    obtain ⟨⟨c, u, rfl, hc⟩, _⟩ := hn
    exact ⟨i, c, u, hi, rfl, by rcases hc with hc | hc; exacts [Or.inr (Or.inr (Or.inl hc)), Or.inr (Or.inr (Or.inr (Or.inl hc)))]⟩
  | @paren i s j e hi h hj ih => exact ⟨i, '(', _, hi, rfl, Or.inr (Or.inr (Or.inr (Or.inr rfl)))⟩
  | @call0 i nm j o k c hi hn hj hb hk =>
    obtain ⟨⟨d, u, rfl, hc⟩, _⟩ := hn
    exact ⟨i, d, _, hi, rfl, by rcases hc with hc | hc; exacts [Or.inr (Or.inr (Or.inl hc)), Or.inr (Or.inr (Or.inr (Or.inl hc)))]⟩
  | @call i nm j o s k c es hi hn hj hb h hk ih =>
    obtain ⟨⟨d, u, rfl, hc⟩, _⟩ := hn
    exact ⟨i, d, _, hi, rfl, by rcases hc with hc | hc; exacts [Or.inr (Or.inr (Or.inl hc)), Or.inr (Or.inr (Or.inr (Or.inl hc)))]⟩
  | argOne h ih => exact ih
  | argMore h hj h' ih ih' =>
    obtain ⟨i, c, t, hi, rfl, hc⟩ := ih
    exact ⟨i, c, _, hi, List.append_assoc .., hc⟩
  | ofPrimary h ih =>
    obtain ⟨i, c, t, hi, rfl, hc⟩ := ih
    exact ⟨i, c, t, hi, rfl, Or.inl hc⟩
  | @neg i e s hi h ih => exact ⟨i, '-', s, hi, rfl, Or.inr (Or.inr rfl)⟩
  | @pos i e s hi h ih => exact ⟨i, '+', s, hi, rfl, Or.inr (Or.inl rfl)⟩
  | ofUnary h ih => exact ih
  | mul h hj h' ih ih' =>
    obtain ⟨i, c, t, hi, rfl, hc⟩ := ih
    exact ⟨i, c, _, hi, List.append_assoc .., hc⟩
  | div h hj h' ih ih' =>
    obtain ⟨i, c, t, hi, rfl, hc⟩ := ih
    exact ⟨i, c, _, hi, List.append_assoc .., hc⟩
  | ofProduct h ih => exact ih
  | add h hj h' ih ih' =>
    obtain ⟨i, c, t, hi, rfl, hc⟩ := ih
    exact ⟨i, c, _, hi, List.append_assoc .., hc⟩
  | sub h hj h' ih ih' =>
    obtain ⟨i, c, t, hi, rfl, hc⟩ := ih
    exact ⟨i, c, _, hi, List.append_assoc .., hc⟩

/-- A text does not begin with a closing bracket, a comma or an opening brace. -/
theorem text_consume {E : Env K} {cat : Cat K} {s : Str} (h : Text E cat s) (rest : Str) :
    (∀ c ∈ closers, consume c (s ++ rest) = none) ∧ consume '{' (s ++ rest) = none := by
  obtain ⟨i, c, t, hi, rfl, hc⟩ := text_begins h
  have hc' : isSpace c = false ∧ c ≠ '#' ∧ c ∉ closers ∧ c ≠ '{' := by
    have key : Start c ∨ c = '+' ∨ c = '-' := by
      cases cat <;> first | exact hc | exact Or.inl hc
    rcases key with h | rfl | rfl
    · obtain ⟨a, b, c, d, _⟩ := start_props h; exact ⟨a, b, c, d⟩
    · decide
    · decide
  obtain ⟨h1, h2, h3, h4⟩ := hc'
  have hs : skip (i ++ c :: t ++ rest) = c :: (t ++ rest) := by
    rw [List.append_assoc, List.cons_append, skip_ign hi, skip_other _ h1 h2]
  constructor
  · intro d hd
    unfold consume
    rw [hs]
    dsimp only
    rw [if_neg]
    rintro rfl; exact h3 hd
  · unfold consume
    rw [hs]
    dsimp only
    rw [if_neg h4]

/-- A primary phrase does not begin with a sign. -/
theorem primary_consume {E : Env K} {e : Ex K} {s : Str} (h : Text E (.primary e) s) (rest : Str) :
    consume '+' (s ++ rest) = none ∧ consume '-' (s ++ rest) = none := by
  obtain ⟨i, c, t, hi, rfl, hc⟩ := text_begins h
  obtain ⟨h1, h2, _, _, h5, h6⟩ := start_props (show Start c from hc)
  have hs : skip (i ++ c :: t ++ rest) = c :: (t ++ rest) := by
    rw [List.append_assoc, List.cons_append, skip_ign hi, skip_other _ h1 h2]
  constructor <;>
  · unfold consume
    rw [hs]
    dsimp only
    rw [if_neg (by assumption)]

/-! ### Names -/

theorem delimited_not_ident {rest : Str} (h : Delimited rest ∨ ∃ c t, rest = c :: t ∧ (c = '(' ∨ c = '[')) :
    rest.takeWhile identChar = [] ∧ rest.dropWhile identChar = rest := by
  have key : rest = [] ∨ ∃ c t, rest = c :: t ∧ identChar c = false := by
    rcases h with (rfl | ⟨c, t, rfl, h⟩) | ⟨c, t, rfl, h⟩
    · exact Or.inl rfl
    · refine Or.inr ⟨c, t, rfl, ?_⟩
      rcases h with h | rfl | h
      · simp only [isSpace, Bool.or_eq_true, decide_eq_true_eq] at h
        rcases h with ((((rfl | rfl) | rfl) | rfl) | rfl) | rfl <;> decide
      · decide
      · simp only [delimiters, List.mem_cons, List.not_mem_nil, or_false] at h
        rcases h with rfl | rfl | rfl | rfl | rfl | rfl | rfl | rfl <;> decide
    · exact Or.inr ⟨c, t, rfl, by rcases h with rfl | rfl <;> decide⟩
  rcases key with rfl | ⟨c, t, rfl, hf⟩
  · simp
  · constructor
    · rw [List.takeWhile_cons, hf]; rfl
    · rw [List.dropWhile_cons, hf]; rfl

theorem identifier_name {nm : Str} (hn : IsName nm) {rest : Str} (h : Delimited rest ∨ ∃ c t, rest = c :: t ∧ (c = '(' ∨ c = '[')) :
    identifier (nm ++ rest) = (nm, rest) := by
  obtain ⟨h1, h2⟩ := delimited_not_ident h
  unfold identifier
  rw [List.takeWhile_append_of_pos hn.2, List.dropWhile_append_of_pos hn.2, h1, h2, List.append_nil]

theorem name_skip {i nm : Str} (hi : Ign i) (hn : IsName nm) (rest : Str) :
    skip (i ++ (nm ++ rest)) = nm ++ rest ∧ startsIdent (nm ++ rest) = true ∧ consume '(' (i ++ (nm ++ rest)) = none := by
  obtain ⟨⟨c, u, rfl, hc⟩, _⟩ := hn
  have hst : Start c := by rcases hc with h | h; exacts [Or.inr (Or.inr (Or.inl h)), Or.inr (Or.inr (Or.inr (Or.inl h)))]
  obtain ⟨h1, h2, _⟩ := start_props hst
  have hs : skip (i ++ (c :: u ++ rest)) = c :: u ++ rest := by
    rw [skip_ign hi, List.cons_append, skip_other _ h1 h2]
  refine ⟨hs, ?_, ?_⟩
  · simp only [startsIdent, List.cons_append, Bool.or_eq_true, beq_iff_eq]; exact hc
  · unfold consume
    rw [hs]
    dsimp only [List.cons_append]
    rw [if_neg]
    rintro rfl
    rcases hc with h | h <;> revert h <;> decide

/-! ### Texts are evaluated to their value -/

/-- The outcome of parsing a phrase followed by `rest`. -/
def Outcome (E : Env K) : Cat K → Str → Prop
  | .primary e, s => ∀ rest, Delimited rest → NotNext openers rest → ConvU (fun n => pPrimary E n (s ++ rest)) (e.eval E) rest
  | .unary e, s => ∀ rest, Delimited rest → NotNext openers rest → ConvU (fun n => pUnary E n (s ++ rest)) (e.eval E) rest
  | .product e, s => ∀ rest, Delimited rest → NotNext openers rest →
      (∀ x, e.eval E = .error x → Conv (fun n => pProduct E n (s ++ rest)) (.error x)) ∧
      (∀ v, e.eval E = .ok v → ∀ R, Conv (fun n => pProductLoop E n v rest) R → Conv (fun n => pProduct E n (s ++ rest)) R)
  | .expr e, s => ∀ rest, Delimited rest → NotNext mulOps rest →
      (∀ x, e.eval E = .error x → Conv (fun n => pExpr E n (s ++ rest)) (.error x)) ∧
      (∀ v, e.eval E = .ok v → ∀ R, Conv (fun n => pExprLoop E n v rest) R → Conv (fun n => pExpr E n (s ++ rest)) R)
  | .args es, s => ∀ j c rest acc, Ign j → (c = ')' ∨ c = ']') →
      Conv (fun n => pArgsLoop E n c acc (s ++ (j ++ c :: rest)))
        (match Ex.evalList E es with
         | .error x => .error x
         | .ok vs => .ok (acc ++ vs, rest))

/-- An expression followed by something that ends it. -/
theorem expr_closed {E : Env K} {e : Ex K} {s : Str} (h : Outcome E (.expr e) s) {rest : Str} (hd : Delimited rest) (ha : NotNext allOps rest) :
    Conv (fun n => pExpr E n (s ++ rest))
      (match e.eval E with
       | .error x => .error x
       | .ok v => .ok (v, skip rest)) := by
  obtain ⟨h1, h2⟩ := h rest hd (after_mono ha (by decide))
  cases he : e.eval E with
  | error x => exact h1 x he
  | ok v =>
    refine h2 v he _ (conv_const fun n => ?_)
    rw [pExprLoop, consume_none_of_after ha (by decide), consume_none_of_after ha (by decide)]

theorem brackets_props {o c : Char} (h : Brackets o c) :
    isSpace o = false ∧ o ≠ '#' ∧ isSpace c = false ∧ c ≠ '#' ∧ (c = ')' ∨ c = ']') := by
  rcases h with ⟨rfl, rfl⟩ | ⟨rfl, rfl⟩ <;> decide

/-- A result with what remains. -/
def withRest {α : Type} (A : Except Err α) (rest : Str) : Res α :=
  match A with
  | .error x => .error x
  | .ok v => .ok (v, rest)

/-- The outcome of a call with evaluated arguments. -/
def callRes (E : Env K) (nm : Str) (A : Except Err (List K)) : Except Err K :=
  match A with
  | .error x => .error x
  | .ok vs => E.call nm vs

/-- The argument list of a function call. -/
theorem call_args {E : Env K} {i nm j : Str} {o c : Char} (hi : Ign i) (hn : IsName nm) (hj : Ign j) (hb : Brackets o c)
    (u : Str) (A : Except Err (List K)) (rest : Str)
    (hA : Conv (fun n => pArgs E n c u) (withRest A rest)) :
    ConvU (fun n => pPrimary E n (i ++ (nm ++ (j ++ o :: u)))) (callRes E nm A) rest := by
  obtain ⟨hs, hst, hc⟩ := name_skip hi hn (j ++ o :: u)
  obtain ⟨b1, b2, _, _, _⟩ := brackets_props hb
  have hid : identifier (nm ++ (j ++ o :: u)) = (nm, j ++ o :: u) := by
    apply identifier_name hn
    cases hj with
    | nil => right; exact ⟨o, u, rfl, by rcases hb with ⟨rfl, _⟩ | ⟨rfl, _⟩ <;> simp⟩
    | space d s hd _ => left; exact Or.inr ⟨d, s ++ o :: u, rfl, Or.inl hd⟩
    | comment w s _ _ => left; exact Or.inr ⟨'#', w ++ '\n' :: s ++ o :: u, by simp, Or.inr (Or.inl rfl)⟩
  have hcons : consume o (j ++ o :: u) = some u := consume_here hj u b1 b2
  have step : ∀ n, pPrimary E (n + 1) (i ++ (nm ++ (j ++ o :: u))) =
      (match pArgs E n c u with
       | .error e => .error e
       | .ok (args, t) =>
         match E.call nm args with
         | .error e => .error e
         | .ok v => .ok (v, t)) := by
    intro n
    rw [pPrimary, hc, hs]
    dsimp only
    rw [if_pos hst, hid]
    dsimp only
    rcases hb with ⟨rfl, rfl⟩ | ⟨rfl, rfl⟩
    · rw [hcons]; rfl
    · have hno : consume '(' (j ++ '[' :: u) = none := by
        unfold consume
        rw [skip_ign hj, skip_other _ (by decide) (by decide)]
        rfl
      rw [hno, hcons]; rfl
  cases A with
  | error x =>
    exact conv_succ_of hA fun n hn => by rw [step, hn]; rfl
  | ok vs =>
    simp only [withRest] at hA
    simp only [callRes]
    cases hcall : E.call nm vs with
    | error x =>
      have : Conv (fun n => pPrimary E n (i ++ (nm ++ (j ++ o :: u)))) (.error x) := by
        obtain ⟨N, hN⟩ := hA
        refine ⟨N + 1, fun m hm => ?_⟩
        obtain ⟨m, rfl⟩ : ∃ m', m = m' + 1 := ⟨m - 1, by omega⟩
        have := hN m (by omega)
        dsimp only at this ⊢
        rw [step, this]
        dsimp only
        rw [hcall]
      exact this
    | ok v =>
      refine ⟨rest, rfl, ?_⟩
      obtain ⟨N, hN⟩ := hA
      refine ⟨N + 1, fun m hm => ?_⟩
      obtain ⟨m, rfl⟩ : ∃ m', m = m' + 1 := ⟨m - 1, by omega⟩
      have := hN m (by omega)
      dsimp only at this ⊢
      rw [step, this]
      dsimp only
      rw [hcall]

theorem text_outcome {E : Env K} {cat : Cat K} {s : Str} (h : Text E cat s) : Outcome E cat s := by
  induction h with
  | @num i t v hi ht =>
    intro rest hd ha
    obtain ⟨⟨c, u, rfl, hc⟩, hl⟩ := ht
    have hst : Start c := by rcases hc with hc | hc; exacts [Or.inl hc, Or.inr (Or.inl hc)]
    obtain ⟨h1, h2, _⟩ := start_props hst
    have hs : skip (i ++ (c :: u) ++ rest) = c :: u ++ rest := by
      rw [List.append_assoc, skip_ign hi, List.cons_append, skip_other _ h1 h2]
    refine ⟨rest, rfl, conv_const fun n => ?_⟩
    have hno : consume '(' (i ++ (c :: u) ++ rest) = none := by
      unfold consume
      rw [hs]
      dsimp only [List.cons_append]
      rw [if_neg]
      rintro rfl
      rcases hc with h | h <;> revert h <;> decide
    have hid : ¬ startsIdent (skip (i ++ (c :: u) ++ rest)) = true := by
      rw [hs]
      simp only [startsIdent, List.cons_append, Bool.or_eq_true, beq_iff_eq]
      rintro (h | rfl)
      · rcases hc with hc | rfl
        · simp only [isAlpha, isDigit, Bool.or_eq_true, Bool.and_eq_true, decide_eq_true_eq] at h hc; omega
        · revert h; decide
      · rcases hc with h | h <;> revert h <;> decide
    rw [pPrimary, hno]
    dsimp only
    rw [if_neg hid]
    unfold Env.number
    rw [hs, hl rest hd]
  | @var i nm hi hn =>
    intro rest hd ha
    obtain ⟨hs, hst, hc⟩ := name_skip hi hn rest
    have hid := identifier_name hn (Or.inl hd)
    have e : ∀ n, pPrimary E (n + 1) (i ++ nm ++ rest) =
        if nm = "parse".toList then .error .parseDirective
        else match E.lookup nm with
          | .error e => .error e
          | .ok v => .ok (v, skip rest) := by
      intro n
      rw [List.append_assoc, pPrimary, hc, hs]
      dsimp only
      rw [if_pos hst, hid]
      dsimp only
      rw [consume_none_of_after ha (by decide), consume_none_of_after ha (by decide)]
      rfl
    by_cases hp : nm = "parse".toList
    · have : Conv (fun n => pPrimary E n (i ++ nm ++ rest)) (.error .parseDirective) :=
        conv_const fun n => by rw [e, if_pos hp]
      simp only [Ex.eval, if_pos hp]
      exact this
    · simp only [Ex.eval, if_neg hp]
      cases hl : E.lookup nm with
      | error x => exact conv_const fun n => by rw [e, if_neg hp, hl]
      | ok v => exact ⟨skip rest, skip_skip _, conv_const fun n => by rw [e, if_neg hp, hl]⟩
  | @paren i s j e hi h hj ih =>
    intro rest hd ha
    have h0 := expr_closed ih (delimited_here hj rest (c := ')') (by decide)) (after_here hj rest (c := ')') (by decide) (by decide) (by decide))
    have hcons : ∀ n, pPrimary E (n + 1) (i ++ '(' :: (s ++ (j ++ [')'])) ++ rest) =
        (match pExpr E n (s ++ (j ++ ')' :: rest)) with
         | .error e => .error e
         | .ok (v, s) => match consume ')' s with
           | some s => .ok (v, s)
           | none => .error .expected) := by
      intro n
      have e1 : i ++ '(' :: (s ++ (j ++ [')'])) ++ rest = i ++ '(' :: (s ++ (j ++ ')' :: rest)) := by simp
      rw [e1, pPrimary, consume_here hi _ (by decide) (by decide)]
      rfl
    cases he : e.eval E with
    | error x =>
      rw [he] at h0
      exact conv_succ_of h0 fun n hn => by rw [hcons, hn]
    | ok v =>
      rw [he] at h0
      refine ⟨rest, rfl, conv_succ_of h0 fun n hn => ?_⟩
      rw [hcons, hn]
      dsimp only
      rw [consume_skip, consume_here hj _ (by decide) (by decide)]
  | @call0 i nm j o k c hi hn hj hb hk =>
    intro rest hd ha
    obtain ⟨_, _, b3, b4, _⟩ := brackets_props hb
    have e1 : i ++ (nm ++ (j ++ o :: (k ++ [c]))) ++ rest = i ++ (nm ++ (j ++ o :: (k ++ c :: rest))) := by simp
    rw [e1]
    have := call_args (E := E) hi hn hj hb (k ++ c :: rest) (.ok []) rest (conv_const fun n => by
      rw [pArgs, consume_here hk _ b3 b4]; rfl)
    simp only [Ex.eval, Ex.evalList]
    exact this
  | @call i nm j o s k c es hi hn hj hb h hk ih =>
    intro rest hd ha
    obtain ⟨_, _, b3, b4, b5⟩ := brackets_props hb
    have e1 : i ++ (nm ++ (j ++ o :: (s ++ (k ++ [c])))) ++ rest = i ++ (nm ++ (j ++ o :: (s ++ (k ++ c :: rest)))) := by simp
    rw [e1]
    have hno : consume c (s ++ (k ++ c :: rest)) = none :=
      (text_consume h _).1 c (by rcases b5 with rfl | rfl <;> decide)
    have h0 := ih k c rest [] hk b5
    have := call_args (E := E) hi hn hj hb (s ++ (k ++ c :: rest)) (Ex.evalList E es) rest (by
      refine conv_succ_of h0 fun n hn => ?_
      rw [pArgs, hno]
      dsimp only
      rw [hn]
      cases Ex.evalList E es <;> rfl)
    simp only [Ex.eval]
    exact this
  | @argOne e s h ih =>
    intro j c rest acc hj hc
    have hb : isSpace c = false ∧ c ≠ '#' ∧ c ∈ delimiters ∧ c ∉ allOps := by rcases hc with rfl | rfl <;> decide
    obtain ⟨b1, b2, b3, b4⟩ := hb
    have h0 := expr_closed ih (delimited_here hj rest b3) (after_here hj rest b1 b2 b4)
    simp only [Ex.evalList]
    cases he : e.eval E with
    | error x =>
      rw [he] at h0
      exact conv_succ_of h0 fun n hn => by rw [pArgsLoop, hn]
    | ok v =>
      rw [he] at h0
      refine conv_succ_of h0 fun n hn => ?_
      rw [pArgsLoop, hn]
      dsimp only
      rw [consume_skip, consume_here hj _ b1 b2]
  | @argMore e s j' es t h hj' h' ih ih' =>
    intro j c rest acc hj hc
    have e1 : s ++ (j' ++ ',' :: t) ++ (j ++ c :: rest) = s ++ (j' ++ ',' :: (t ++ (j ++ c :: rest))) := by simp
    rw [e1]
    have h0 := expr_closed ih (delimited_here hj' (t ++ (j ++ c :: rest)) (c := ',') (by decide))
      (after_here hj' (t ++ (j ++ c :: rest)) (c := ',') (by decide) (by decide) (by decide))
    simp only [Ex.evalList]
    cases he : e.eval E with
    | error x =>
      rw [he] at h0
      exact conv_succ_of h0 fun n hn => by rw [pArgsLoop, hn]
    | ok v =>
      rw [he] at h0
      have h1 := ih' j c rest (acc ++ [v]) hj hc
      have hno : consume c (skip (j' ++ ',' :: (t ++ (j ++ c :: rest)))) = none := by
        rw [consume_skip]
        exact consume_other hj' _ (by decide) (by decide) (by rcases hc with rfl | rfl <;> decide)
      have hstep : ∀ n, pExpr E n (s ++ (j' ++ ',' :: (t ++ (j ++ c :: rest)))) = .ok (v, skip (j' ++ ',' :: (t ++ (j ++ c :: rest)))) →
          pArgsLoop E (n + 1) c acc (s ++ (j' ++ ',' :: (t ++ (j ++ c :: rest)))) = pArgsLoop E n c (acc ++ [v]) (t ++ (j ++ c :: rest)) := by
        intro n hn
        rw [pArgsLoop, hn]
        dsimp only
        rw [hno, consume_skip, consume_here hj' _ (by decide) (by decide)]
      refine conv_of_succ2 h0 (h := fun n => pArgsLoop E n c (acc ++ [v]) (t ++ (j ++ c :: rest))) ?_ (fun n hn hn' => ?_)
      · convert h1 using 1
        cases Ex.evalList E es with
        | error x => rfl
        | ok vs => simp
      · dsimp only at hn hn' ⊢
        rw [hstep n hn, hn']
  | @ofPrimary e s h ih =>
    intro rest hd ha
    have h0 := ih rest hd ha
    obtain ⟨n1, n2⟩ := primary_consume h rest
    have step : ∀ n, pUnary E (n + 1) (s ++ rest) = pPrimary E n (s ++ rest) := by
      intro n; rw [pUnary, n1, n2]
    cases he : e.eval E with
    | error x =>
      rw [he] at h0
      exact conv_succ_of h0 fun n hn => by rw [step, hn]
    | ok v =>
      rw [he] at h0
      obtain ⟨rest', hr, h0⟩ := h0
      exact ⟨rest', hr, conv_succ_of h0 fun n hn => by rw [step, hn]⟩
  | @neg i e s hi h ih =>
    intro rest hd ha
    have h0 := ih rest hd ha
    have step : ∀ n, pUnary E (n + 1) (i ++ '-' :: s ++ rest) =
        (match pUnary E n (s ++ rest) with
         | .error e => .error e
         | .ok (v, s) => .ok (-v, s)) := by
      intro n
      have e1 : i ++ '-' :: s ++ rest = i ++ '-' :: (s ++ rest) := by simp
      rw [e1, pUnary, consume_other hi _ (by decide) (by decide) (by decide),
        consume_here hi _ (by decide) (by decide)]
      rfl
    simp only [Ex.eval]
    cases he : e.eval E with
    | error x =>
      rw [he] at h0
      exact conv_succ_of h0 fun n hn => by rw [step, hn]
    | ok v =>
      rw [he] at h0
      obtain ⟨rest', hr, h0⟩ := h0
      exact ⟨rest', hr, conv_succ_of h0 fun n hn => by rw [step, hn]⟩
  | @pos i e s hi h ih =>
    intro rest hd ha
    have h0 := ih rest hd ha
    have step : ∀ n, pUnary E (n + 1) (i ++ '+' :: s ++ rest) = pUnary E n (s ++ rest) := by
      intro n
      have e1 : i ++ '+' :: s ++ rest = i ++ '+' :: (s ++ rest) := by simp
      rw [e1, pUnary, consume_here hi _ (by decide) (by decide)]
    simp only [Ex.eval]
    cases he : e.eval E with
    | error x =>
      rw [he] at h0
      exact conv_succ_of h0 fun n hn => by rw [step, hn]
    | ok v =>
      rw [he] at h0
      obtain ⟨rest', hr, h0⟩ := h0
      exact ⟨rest', hr, conv_succ_of h0 fun n hn => by rw [step, hn]⟩
  | @ofUnary e s h ih =>
    intro rest hd ha
    have h0 := ih rest hd ha
    constructor
    · intro x he
      rw [he] at h0
      exact conv_succ_of h0 fun n hn => by rw [pProduct, hn]
    · intro v he R hR
      rw [he] at h0
      obtain ⟨rest', hr, h0⟩ := h0
      refine conv_of_succ2 h0 hR fun n hn hn' => ?_
      rw [pProduct, hn]
      dsimp only
      rw [productLoop_congr E hr, hn']
  | @mul a s j b t h hj h' ih ih' =>
    intro rest hd ha
    have e1 : s ++ (j ++ '*' :: t) ++ rest = s ++ (j ++ '*' :: (t ++ rest)) := by simp
    rw [e1]
    obtain ⟨a1, a2⟩ := ih _ (delimited_here hj (t ++ rest) (c := '*') (by decide))
      (after_here hj (t ++ rest) (c := '*') (by decide) (by decide) (by decide))
    have h0 := ih' rest hd ha
    have step : ∀ n v, pProductLoop E (n + 1) v (j ++ '*' :: (t ++ rest)) =
        (match pUnary E n (t ++ rest) with
         | .error e => .error e
         | .ok (w, s) => pProductLoop E n (v * w) s) := by
      intro n v
      rw [pProductLoop, consume_here hj _ (by decide) (by decide)]
      rfl
    simp only [Ex.eval]
    cases ea : a.eval E with
    | error x =>
      refine ⟨fun y hy => ?_, fun v hv => by simp at hv⟩
      simp only [Except.error.injEq] at hy
      subst hy
      exact a1 x ea
    | ok v =>
      dsimp only
      cases eb : b.eval E with
      | error x =>
        refine ⟨fun y hy => ?_, fun v hv => by simp at hv⟩
        simp only [Except.error.injEq] at hy
        subst hy
        rw [eb] at h0
        exact a2 v ea _ (conv_succ_of h0 fun n hn => by rw [step, hn])
      | ok w =>
        refine ⟨fun y hy => by simp at hy, fun z hz R hR => ?_⟩
        simp only [Except.ok.injEq] at hz
        subst hz
        rw [eb] at h0
        obtain ⟨rest', hr, h0⟩ := h0
        refine a2 v ea _ (conv_of_succ2 h0 hR fun n hn hn' => ?_)
        rw [step, hn]
        dsimp only
        rw [productLoop_congr E hr, hn']
  | @div a s j b t h hj h' ih ih' =>
    intro rest hd ha
    have e1 : s ++ (j ++ '/' :: t) ++ rest = s ++ (j ++ '/' :: (t ++ rest)) := by simp
    rw [e1]
    obtain ⟨a1, a2⟩ := ih _ (delimited_here hj (t ++ rest) (c := '/') (by decide))
      (after_here hj (t ++ rest) (c := '/') (by decide) (by decide) (by decide))
    have h0 := ih' rest hd ha
    have step : ∀ n v, pProductLoop E (n + 1) v (j ++ '/' :: (t ++ rest)) =
        (match pUnary E n (t ++ rest) with
         | .error e => .error e
         | .ok (w, s) => if w = 0 then .error .divZero else pProductLoop E n (v / w) s) := by
      intro n v
      rw [pProductLoop, consume_other hj _ (by decide) (by decide) (by decide),
        consume_here hj _ (by decide) (by decide)]
      rfl
    simp only [Ex.eval]
    cases ea : a.eval E with
    | error x =>
      refine ⟨fun y hy => ?_, fun v hv => by simp at hv⟩
      simp only [Except.error.injEq] at hy
      subst hy
      exact a1 x ea
    | ok v =>
      dsimp only
      cases eb : b.eval E with
      | error x =>
        refine ⟨fun y hy => ?_, fun v hv => by simp at hv⟩
        simp only [Except.error.injEq] at hy
        subst hy
        rw [eb] at h0
        exact a2 v ea _ (conv_succ_of h0 fun n hn => by rw [step, hn])
      | ok w =>
        dsimp only
        rw [eb] at h0
        obtain ⟨rest', hr, h0⟩ := h0
        by_cases hw : w = 0
        · rw [if_pos hw]
          refine ⟨fun y hy => ?_, fun z hz => by simp at hz⟩
          simp only [Except.error.injEq] at hy
          subst hy
          refine a2 v ea _ (conv_succ_of h0 fun n hn => ?_)
          rw [step, hn]
          dsimp only
          rw [if_pos hw]
        · rw [if_neg hw]
          refine ⟨fun y hy => by simp at hy, fun z hz R hR => ?_⟩
          simp only [Except.ok.injEq] at hz
          subst hz
          refine a2 v ea _ (conv_of_succ2 h0 hR fun n hn hn' => ?_)
          rw [step, hn]
          dsimp only
          rw [if_neg hw, productLoop_congr E hr, hn']
  | @ofProduct e s h ih =>
    intro rest hd ha
    obtain ⟨a1, a2⟩ := ih rest hd (after_mono ha (by decide))
    constructor
    · intro x he
      exact conv_succ_of (a1 x he) fun n hn => by rw [pExpr, hn]
    · intro v he R hR
      have h0 := a2 v he (.ok (v, skip rest)) (conv_const fun n => by
        rw [pProductLoop, consume_none_of_after ha (by decide), consume_none_of_after ha (by decide)])
      refine conv_of_succ2 h0 hR fun n hn hn' => ?_
      rw [pExpr, hn]
      dsimp only
      rw [exprLoop_congr E (skip_skip rest), hn']
  | @add a s j b t h hj h' ih ih' =>
    intro rest hd ha
    have e1 : s ++ (j ++ '+' :: t) ++ rest = s ++ (j ++ '+' :: (t ++ rest)) := by simp
    rw [e1]
    obtain ⟨a1, a2⟩ := ih _ (delimited_here hj (t ++ rest) (c := '+') (by decide))
      (after_here hj (t ++ rest) (c := '+') (by decide) (by decide) (by decide))
    obtain ⟨b1, b2⟩ := ih' rest hd (after_mono ha (by decide))
    have step : ∀ n v, pExprLoop E (n + 1) v (j ++ '+' :: (t ++ rest)) =
        (match pProduct E n (t ++ rest) with
         | .error e => .error e
         | .ok (w, s) => pExprLoop E n (v + w) s) := by
      intro n v
      rw [pExprLoop, consume_here hj _ (by decide) (by decide)]
      rfl
    simp only [Ex.eval]
    cases ea : a.eval E with
    | error x =>
      refine ⟨fun y hy => ?_, fun v hv => by simp at hv⟩
      simp only [Except.error.injEq] at hy
      subst hy
      exact a1 x ea
    | ok v =>
      dsimp only
      cases eb : b.eval E with
      | error x =>
        refine ⟨fun y hy => ?_, fun v hv => by simp at hv⟩
        simp only [Except.error.injEq] at hy
        subst hy
        exact a2 v ea _ (conv_succ_of (b1 x eb) fun n hn => by rw [step, hn])
      | ok w =>
        refine ⟨fun y hy => by simp at hy, fun z hz R hR => ?_⟩
        simp only [Except.ok.injEq] at hz
        subst hz
        have h0 := b2 w eb (.ok (w, skip rest)) (conv_const fun n => by
          rw [pProductLoop, consume_none_of_after ha (by decide), consume_none_of_after ha (by decide)])
        refine a2 v ea _ (conv_of_succ2 h0 hR fun n hn hn' => ?_)
        rw [step, hn]
        dsimp only
        rw [exprLoop_congr E (skip_skip rest), hn']
  | @sub a s j b t h hj h' ih ih' =>
    intro rest hd ha
    have e1 : s ++ (j ++ '-' :: t) ++ rest = s ++ (j ++ '-' :: (t ++ rest)) := by simp
    rw [e1]
    obtain ⟨a1, a2⟩ := ih _ (delimited_here hj (t ++ rest) (c := '-') (by decide))
      (after_here hj (t ++ rest) (c := '-') (by decide) (by decide) (by decide))
    obtain ⟨b1, b2⟩ := ih' rest hd (after_mono ha (by decide))
    have step : ∀ n v, pExprLoop E (n + 1) v (j ++ '-' :: (t ++ rest)) =
        (match pProduct E n (t ++ rest) with
         | .error e => .error e
         | .ok (w, s) => pExprLoop E n (v - w) s) := by
      intro n v
      rw [pExprLoop, consume_other hj _ (by decide) (by decide) (by decide),
        consume_here hj _ (by decide) (by decide)]
      rfl
    simp only [Ex.eval]
    cases ea : a.eval E with
    | error x =>
      refine ⟨fun y hy => ?_, fun v hv => by simp at hv⟩
      simp only [Except.error.injEq] at hy
      subst hy
      exact a1 x ea
    | ok v =>
      dsimp only
      cases eb : b.eval E with
      | error x =>
        refine ⟨fun y hy => ?_, fun v hv => by simp at hv⟩
        simp only [Except.error.injEq] at hy
        subst hy
        exact a2 v ea _ (conv_succ_of (b1 x eb) fun n hn => by rw [step, hn])
      | ok w =>
        refine ⟨fun y hy => by simp at hy, fun z hz R hR => ?_⟩
        simp only [Except.ok.injEq] at hz
        subst hz
        have h0 := b2 w eb (.ok (w, skip rest)) (conv_const fun n => by
          rw [pProductLoop, consume_none_of_after ha (by decide), consume_none_of_after ha (by decide)])
        refine a2 v ea _ (conv_of_succ2 h0 hR fun n hn hn' => ?_)
        rw [step, hn]
        dsimp only
        rw [exprLoop_congr E (skip_skip rest), hn']

end Verif.Inst
