import Verif.Text.Model
import Mathlib.Data.Nat.Digits.Lemmas
/-! # Text: lemmas -/

namespace Verif.Text
open Verif.Invar (Label)

theorem digitChar_toNat (d : Nat) (h : d < 10) : (digitChar d).toNat = 48 + d := by
  interval_cases d <;> rfl

theorem digitChar_isDigit (d : Nat) (h : d < 10) : isDigit (digitChar d) = true := by
  interval_cases d <;> rfl

theorem natValue_append (s : Str) (c : Char) : natValue (s ++ [c]) = 10 * natValue s + (c.toNat - 48) := by
  simp [natValue, List.foldl_append]

theorem natValue_digits (l : List Nat) (h : ∀ d ∈ l, d < 10) :
    natValue (l.reverse.map digitChar) = Nat.ofDigits 10 l := by
  induction l with
  | nil => rfl
  | cons d l ih =>
    rw [List.reverse_cons, List.map_append, List.map_cons, List.map_nil, natValue_append,
      ih fun x hx => h x (by simp [hx]), digitChar_toNat d (h d (by simp)), Nat.ofDigits_cons]
    simp
    omega

theorem natStr_value (n : Nat) : natValue (natStr n) = n := by
  unfold natStr
  split
  · next h => subst h; rfl
  · rw [natValue_digits _ fun d hd => Nat.digits_lt_base (by omega) hd, Nat.ofDigits_digits]

theorem natStr_isDigit (n : Nat) (c : Char) (h : c ∈ natStr n) : isDigit c = true := by
  unfold natStr at h
  split at h
  · simp at h; subst h; rfl
  · simp only [List.mem_map, List.mem_reverse] at h
    obtain ⟨d, hd, rfl⟩ := h
    exact digitChar_isDigit d (Nat.digits_lt_base (by omega) hd)

theorem natStr_ne_nil (n : Nat) : natStr n ≠ [] := by
  unfold natStr
  split
  · simp
  · next h => simp [Nat.digits_ne_nil_iff_ne_zero.2 h]

theorem natStr_injective {m n : Nat} (h : natStr m = natStr n) : m = n := by
  rw [← natStr_value m, h, natStr_value]

/-- The text does not begin with a digit. -/
def NoDigit (s : Str) : Prop := ∀ c ∈ s.head?, isDigit c = false

theorem noDigit_nil : NoDigit [] := by simp [NoDigit]

theorem takeWhile_digits (ds rest : Str) (h : ∀ c ∈ ds, isDigit c = true) (hr : NoDigit rest) :
    (ds ++ rest).takeWhile isDigit = ds ∧ (ds ++ rest).dropWhile isDigit = rest := by
  induction ds with
  | nil =>
    cases rest with
    | nil => simp
    | cons c r =>
      have : isDigit c = false := hr c (by simp)
      simp [this]
  | cons d ds ih =>
    have h1 := h d (by simp)
    have h2 := ih fun c hc => h c (by simp [hc])
    simp [h1, h2]

theorem digit_not_space {c : Char} (h : isDigit c = true) : isSpace c = false := by
  have h' : 48 ≤ c.toNat ∧ c.toNat ≤ 57 := by simpa [isDigit] using h
  unfold isSpace
  simp only [Bool.or_eq_false_iff, decide_eq_false_iff_not]
  refine ⟨⟨⟨⟨⟨?_, ?_⟩, ?_⟩, ?_⟩, ?_⟩, ?_⟩ <;> rintro rfl <;> revert h' <;> decide

theorem digit_ne {c : Char} (h : isDigit c = true) : c ≠ '-' ∧ c ≠ '+' ∧ c ≠ '_' ∧ c ≠ ' ' ∧ c ≠ ',' ∧ c ≠ '\'' ∧ c ≠ '/' := by
  refine ⟨?_, ?_, ?_, ?_, ?_, ?_, ?_⟩ <;> rintro rfl <;> revert h <;> decide

theorem natStr_cons (n : Nat) : ∃ c s, natStr n = c :: s ∧ isDigit c = true := by
  cases h : natStr n with
  | nil => exact absurd h (natStr_ne_nil n)
  | cons c s => exact ⟨c, s, rfl, natStr_isDigit n c (by rw [h]; simp)⟩

theorem readInt_intStr (a : Int) (ha : inInt a) (rest : Str) (hr : NoDigit rest) :
    readInt (intStr a ++ rest) = some (a, rest) := by
  have key := fun n => takeWhile_digits (natStr n) rest (natStr_isDigit n) hr
  obtain ⟨c, s, hc, hd⟩ := natStr_cons a.natAbs
  have hk := key a.natAbs
  have hv := natStr_value a.natAbs
  unfold readInt intStr
  split
  · next hneg =>
    have h1 : ('-' :: natStr a.natAbs ++ rest).dropWhile isSpace = '-' :: (natStr a.natAbs ++ rest) := by
      rw [List.cons_append, List.dropWhile_cons, if_neg (by decide)]
    simp only [h1, readSign, hk, hv, natStr_ne_nil, if_true, if_false]
    have : -(a.natAbs : Int) = a := by omega
    rw [this, if_pos ha]
  · next hneg =>
    have h1 : (natStr a.natAbs ++ rest).dropWhile isSpace = natStr a.natAbs ++ rest := by
      rw [hc, List.cons_append, List.dropWhile_cons, if_neg (by rw [digit_not_space hd]; simp)]
    have h2 : readSign (natStr a.natAbs ++ rest) = (false, natStr a.natAbs ++ rest) := by
      rw [hc, List.cons_append]
      have := digit_ne hd
      unfold readSign
      split
      · next h => simp at h; exact absurd h.1 this.1
      · next h => simp at h; exact absurd h.1 this.2.1
      · rfl
    simp only [h1]
    rw [h2]
    simp only [hk, hv, natStr_ne_nil, if_false]
    have : (a.natAbs : Int) = a := by omega
    simp [this, ha]

theorem readInt_space (s : Str) : readInt (' ' :: s) = readInt s := by
  have : (' ' :: s).dropWhile isSpace = s.dropWhile isSpace := by
    rw [List.dropWhile_cons, if_pos (by decide)]
  unfold readInt
  rw [this]

theorem extractor_space (n : Nat) (s : Str) : extractor (n + 1) (' ' :: s) = extractor (n + 1) s := by
  simp only [extractor, readInt_space]

theorem intStr_ne_nil (a : Int) : intStr a ≠ [] := by
  unfold intStr; split
  · simp
  · exact natStr_ne_nil _

/-- Characters of a printed number. -/
theorem intStr_chars (a : Int) (c : Char) (h : c ∈ intStr a) : c = '-' ∨ isDigit c = true := by
  unfold intStr at h
  split at h
  · rcases List.mem_cons.1 h with h | h
    · exact .inl h
    · exact .inr (natStr_isDigit _ _ h)
  · exact .inr (natStr_isDigit _ _ h)

theorem intStr_injective {a b : Int} (h : intStr a = intStr b) : a = b := by
  obtain ⟨c, s, hc, hd⟩ := natStr_cons a.natAbs
  obtain ⟨c', s', hc', hd'⟩ := natStr_cons b.natAbs
  unfold intStr at h
  split at h <;> split at h
  · have := natStr_injective (List.cons.inj h).2; omega
  · rw [hc'] at h; exact absurd (List.cons.inj h).1.symm (digit_ne hd').1
  · rw [hc] at h; exact absurd (List.cons.inj h).1 (digit_ne hd).1
  · have := natStr_injective h; omega

/-- Splitting at the first separator is unique. -/
theorem append_sep_inj {a b x y : Str} {d : Char} (ha : d ∉ a) (hb : d ∉ b) (h : a ++ d :: x = b ++ d :: y) :
    a = b ∧ x = y := by
  induction a generalizing b with
  | nil =>
    cases b with
    | nil => simpa using h
    | cons c b => simp at h; simp [h.1] at hb
  | cons c a ih =>
    cases b with
    | nil => simp at h; simp [h.1] at ha
    | cons c' b =>
      simp at h ha hb
      obtain ⟨h1, h2⟩ := ih (by simpa using ha.2) (by simpa using hb.2) h.2
      exact ⟨by rw [h.1, h1], h2⟩

theorem not_mem_intStr {d : Char} (h1 : d ≠ '-') (h2 : isDigit d = false) (a : Int) : d ∉ intStr a := by
  intro h
  rcases intStr_chars a d h with h | h
  · exact h1 h
  · rw [h2] at h; cases h

theorem insertor_injective {d : Char} (h1 : d ≠ '-') (h2 : isDigit d = false) :
    ∀ (l m : Label), insertor [d] l = insertor [d] m → l = m := by
  have hn := not_mem_intStr h1 h2
  intro l
  induction l with
  | nil =>
    intro m h
    match m with
    | [] => rfl
    | [a] => exact absurd h.symm (intStr_ne_nil a)
    | a :: b :: m => simp [insertor, intStr_ne_nil] at h
  | cons a l ih =>
    intro m h
    match l, m with
    | [], [] => exact absurd h (intStr_ne_nil a)
    | _ :: _, [] => simp [insertor, intStr_ne_nil] at h
    | [], [b] => rw [intStr_injective h]
    | [], b :: c :: m =>
      exfalso
      simp only [insertor] at h
      exact hn a (by rw [h]; simp)
    | b :: l, [c] =>
      exfalso
      simp only [insertor] at h
      exact hn c (by rw [← h]; simp)
    | b :: l, c :: e :: m =>
      simp only [insertor, List.append_assoc, List.singleton_append] at h
      obtain ⟨h3, h4⟩ := append_sep_inj (hn a) (hn c) h
      rw [intStr_injective h3, ih (e :: m) h4]

theorem extractor_insertor (l : Label) (hl : ∀ a ∈ l, inInt a) (rest : Str) (hr : NoDigit rest) :
    extractor l.length (str l ++ rest) = some (l, rest) := by
  unfold str
  induction l with
  | nil => rfl
  | cons a l ih =>
    have ha := hl a (by simp)
    have ih := ih fun b hb => hl b (by simp [hb])
    cases l with
    | nil =>
      simp only [insertor, List.length_cons, List.length_nil, extractor]
      rw [readInt_intStr a ha rest hr]
    | cons b l =>
      simp only [insertor, List.append_assoc, List.singleton_append]
      rw [List.length_cons, extractor, readInt_intStr a ha _ (by intro c hc; simp at hc; subst hc; rfl)]
      simp only [List.cons_append, List.length_cons, extractor_space] at ih ⊢
      rw [ih]

/-! ## Splitting -/

theorem splitAux_nodelim (d : Char) (cur s rest : Str) (h : d ∉ s) :
    splitAux d cur (s ++ d :: rest) = (cur ++ s) :: splitAux d [] rest := by
  induction s generalizing cur with
  | nil => simp [splitAux]
  | cons c s ih =>
    simp at h
    simp only [List.cons_append, splitAux]
    rw [if_neg (fun hc => h.1 hc.symm), ih _ (by simpa using h.2)]
    simp

theorem splitAux_last (d : Char) (cur s : Str) (h : d ∉ s) :
    splitAux d cur s = if cur ++ s = [] then [] else [cur ++ s] := by
  induction s generalizing cur with
  | nil => simp [splitAux]
  | cons c s ih =>
    simp at h
    simp only [splitAux]
    rw [if_neg (fun hc => h.1 hc.symm), ih _ (by simpa using h.2)]
    simp

/-- Items joined with a separator. -/
def join (d : Char) : List Str → Str
  | [] => []
  | [s] => s
  | s :: l => s ++ d :: join d l

theorem split_join (d : Char) (l : List Str) (h : ∀ s ∈ l, d ∉ s ∧ s ≠ []) : split d (join d l) = l := by
  unfold split
  induction l with
  | nil => rfl
  | cons s l ih =>
    have hs := h s (by simp)
    cases l with
    | nil => simp only [join]; rw [splitAux_last d _ _ hs.1]; simp [hs.2]
    | cons t l =>
      simp only [join]
      rw [splitAux_nodelim d _ _ _ hs.1, ih fun x hx => h x (by simp [hx])]
      simp

end Verif.Text
