import Verif.Inst.Spec
import Verif.Text.Lemmas
import Mathlib.Algebra.GroupWithZero.Basic
/-!
# Decimal notation as `strtod` reads it

Hexadecimal notation, `inf`, `nan`, a leading sign and overflow are not modelled (a sign is
consumed by the evaluator before it calls `strtod`; letters never reach it).
-/

namespace Verif.Inst
open Verif.Text

variable {K : Type} [Field K]

/-- A text not continued by a digit. -/
def fraction : Str → Str × Str
  | '.' :: u => (u.takeWhile isDigit, u.dropWhile isDigit)
  | u => ([], u)

/-- The exponent, when there is one: its value and the rest. -/
def exponent (s : Str) : Int × Str :=
  match s with
  | c :: u =>
    if c = 'e' ∨ c = 'E' then
      let sg := readSign u
      let ds := sg.2.takeWhile isDigit
      if ds = [] then (0, s)
      else ((if sg.1 then -(natValue ds : Int) else natValue ds), sg.2.dropWhile isDigit)
    else (0, s)
  | [] => (0, s)

/-- `strtod` on decimal notation (as called in `matrix_evaluator.hpp:105`): digits with an
optional point and at least one digit, and an optional exponent. -/
def decimal (s : Str) : Option (K × Str) :=
  let ip := s.takeWhile isDigit
  let fp := fraction (s.dropWhile isDigit)
  if ip = [] ∧ fp.1 = [] then none
  else
    let ex := exponent fp.2
    some ((natValue (ip ++ fp.1) : K) / 10 ^ fp.1.length * 10 ^ ex.1, ex.2)

theorem fraction_length (s : Str) : (fraction s).2.length + (fraction s).1.length ≤ s.length := by
  unfold fraction
  split
  · rename_i u
    have := congrArg List.length (List.takeWhile_append_dropWhile (p := isDigit) (l := u))
    rw [List.length_append] at this
    simp only [List.length_cons]
    omega
  · simp

theorem exponent_length (s : Str) : (exponent s).2.length ≤ s.length := by
  have hr : ∀ u : Str, (readSign u).2.length ≤ u.length := by
    intro u
    unfold readSign
    split <;> simp
  unfold exponent
  split
  · rename_i c u
    split
    · dsimp only
      split
      · simp
      · have h1 := hr u
        have h2 := (List.dropWhile_suffix (p := isDigit) (l := (readSign u).2)).length_le
        simp only [List.length_cons]
        omega
    · simp
  · simp

theorem decimal_progress {s t : Str} {v : K} (h : decimal s = some (v, t)) : t.length < s.length := by
  unfold decimal at h
  dsimp only at h
  split at h
  · simp at h
  · rename_i hne
    simp only [Option.some.injEq, Prod.mk.injEq] at h
    rw [← h.2]
    have h0 := congrArg List.length (List.takeWhile_append_dropWhile (p := isDigit) (l := s))
    rw [List.length_append] at h0
    have h1 := fraction_length (s.dropWhile isDigit)
    have h2 := exponent_length (fraction (s.dropWhile isDigit)).2
    have h3 : 0 < (s.takeWhile isDigit).length + (fraction (s.dropWhile isDigit)).1.length := by
      by_contra hc
      apply hne
      exact ⟨List.length_eq_zero_iff.mp (by omega), List.length_eq_zero_iff.mp (by omega)⟩
    omega

theorem delimited_char {rest : Str} (h : Delimited rest) :
    rest = [] ∨ ∃ c t, rest = c :: t ∧ isDigit c = false ∧ c ≠ '.' ∧ c ≠ 'e' ∧ c ≠ 'E' := by
  rcases h with rfl | ⟨c, t, rfl, h⟩
  · exact Or.inl rfl
  · refine Or.inr ⟨c, t, rfl, ?_⟩
    rcases h with h | rfl | h
    · simp only [isSpace, Bool.or_eq_true, decide_eq_true_eq] at h
      rcases h with ((((rfl | rfl) | rfl) | rfl) | rfl) | rfl <;> decide
    · decide
    · simp only [delimiters, List.mem_cons, List.not_mem_nil, or_false] at h
      rcases h with rfl | rfl | rfl | rfl | rfl | rfl | rfl | rfl <;> decide

theorem digits_then {ds rest : Str} (hd : ∀ c ∈ ds, isDigit c = true) (hr : rest = [] ∨ ∃ c t, rest = c :: t ∧ isDigit c = false) :
    (ds ++ rest).takeWhile isDigit = ds ∧ (ds ++ rest).dropWhile isDigit = rest := by
  rw [List.takeWhile_append_of_pos hd, List.dropWhile_append_of_pos hd]
  rcases hr with rfl | ⟨c, t, rfl, hc⟩
  · simp
  · constructor
    · rw [List.takeWhile_cons, hc]; simp
    · rw [List.dropWhile_cons, hc]; rfl

theorem exponent_none {rest : Str} (h : Delimited rest) : exponent rest = (0, rest) := by
  rcases delimited_char h with rfl | ⟨c, t, rfl, _, _, h1, h2⟩
  · rfl
  · simp [exponent, h1, h2]

/-- Digits, optionally followed by a point and more digits, denote the decimal number. -/
theorem decimal_integer {ds rest : Str} (hne : ds ≠ []) (hd : ∀ c ∈ ds, isDigit c = true) (hr : Delimited rest) :
    decimal (K := K) (ds ++ rest) = some ((natValue ds : K), rest) := by
  have hc := delimited_char hr
  obtain ⟨h1, h2⟩ := digits_then hd (rest := rest) (by
    rcases hc with h | ⟨c, t, h, h', _⟩
    · exact Or.inl h
    · exact Or.inr ⟨c, t, h, h'⟩)
  have hf : fraction rest = ([], rest) := by
    rcases hc with rfl | ⟨c, t, rfl, _, h, _⟩
    · rfl
    · unfold fraction
      split
      · rename_i u he; simp only [List.cons.injEq] at he; exact absurd he.1 h
      · rfl
  unfold decimal
  dsimp only
  rw [h1, h2, hf]
  dsimp only
  rw [if_neg (fun h => hne h.1), exponent_none hr]
  simp

theorem decimal_point {ip fp rest : Str} (hne : ip ++ fp ≠ []) (hi : ∀ c ∈ ip, isDigit c = true) (hf : ∀ c ∈ fp, isDigit c = true)
    (hr : Delimited rest) :
    decimal (K := K) (ip ++ '.' :: fp ++ rest) = some ((natValue (ip ++ fp) : K) / 10 ^ fp.length, rest) := by
  have hc := delimited_char hr
  have e : ip ++ '.' :: fp ++ rest = ip ++ '.' :: (fp ++ rest) := by simp
  obtain ⟨h1, h2⟩ := digits_then hi (rest := '.' :: (fp ++ rest)) (Or.inr ⟨'.', _, rfl, by decide⟩)
  obtain ⟨h3, h4⟩ := digits_then hf (rest := rest) (by
    rcases hc with h | ⟨c, t, h, h', _⟩
    · exact Or.inl h
    · exact Or.inr ⟨c, t, h, h'⟩)
  have hfr : fraction ('.' :: (fp ++ rest)) = (fp, rest) := by
    simp only [fraction, h3, h4]
  unfold decimal
  dsimp only
  rw [e, h1, h2, hfr]
  dsimp only
  rw [if_neg (fun h => hne (by rw [h.1, h.2]; rfl)), exponent_none hr]
  simp

/-- A sign in front of an exponent and its meaning. -/
def expSigns : List (Str × Int) := [([], 1), (['+'], 1), (['-'], -1)]

theorem exponent_digits {sg : Str × Int} (hsg : sg ∈ expSigns) {c : Char} (hc : c = 'e' ∨ c = 'E') {es rest : Str} (hne : es ≠ [])
    (he : ∀ x ∈ es, isDigit x = true) (hr : Delimited rest) :
    exponent (c :: (sg.1 ++ es ++ rest)) = (sg.2 * natValue es, rest) := by
  have hrd : readSign (sg.1 ++ es ++ rest) = (decide (sg.2 = -1), es ++ rest) := by
    cases es with
    | nil => exact absurd rfl hne
    | cons d ds =>
      have hd : isDigit d = true := he d (by simp)
      have h1 : d ≠ '-' := by rintro rfl; revert hd; decide
      have h2 : d ≠ '+' := by rintro rfl; revert hd; decide
      simp only [expSigns, List.mem_cons, List.not_mem_nil, or_false] at hsg
      rcases hsg with rfl | rfl | rfl
      · simp only [List.nil_append, List.cons_append]
        unfold readSign
        split
        · rename_i u hu; simp only [List.cons.injEq] at hu; exact absurd hu.1 h1
        · rename_i u hu; simp only [List.cons.injEq] at hu; exact absurd hu.1 h2
        · simp
      · rfl
      · rfl
  obtain ⟨h3, h4⟩ := digits_then he (rest := rest) (by
    rcases delimited_char hr with h | ⟨c, t, h, h', _⟩
    · exact Or.inl h
    · exact Or.inr ⟨c, t, h, h'⟩)
  simp only [exponent, hc, if_true, hrd, h3, h4, hne, if_false]
  simp only [expSigns, List.mem_cons, List.not_mem_nil, or_false] at hsg
  rcases hsg with rfl | rfl | rfl <;> simp

theorem decimal_scaled {ip fp rest : Str} (hne : ip ++ fp ≠ []) (hi : ∀ c ∈ ip, isDigit c = true) (hf : ∀ c ∈ fp, isDigit c = true)
    {sg : Str × Int} (hsg : sg ∈ expSigns) {c : Char} (hc : c = 'e' ∨ c = 'E') {es : Str} (hes : es ≠ [])
    (he : ∀ x ∈ es, isDigit x = true) (hr : Delimited rest) :
    decimal (K := K) (ip ++ '.' :: (fp ++ c :: (sg.1 ++ es)) ++ rest) =
      some ((natValue (ip ++ fp) : K) / 10 ^ fp.length * 10 ^ (sg.2 * natValue es), rest) := by
  have e : ip ++ '.' :: (fp ++ c :: (sg.1 ++ es)) ++ rest = ip ++ '.' :: (fp ++ c :: (sg.1 ++ es ++ rest)) := by simp
  obtain ⟨h1, h2⟩ := digits_then hi (rest := '.' :: (fp ++ c :: (sg.1 ++ es ++ rest))) (Or.inr ⟨'.', _, rfl, by decide⟩)
  obtain ⟨h3, h4⟩ := digits_then hf (rest := c :: (sg.1 ++ es ++ rest)) (Or.inr ⟨c, _, rfl, by rcases hc with rfl | rfl <;> decide⟩)
  have hfr : fraction ('.' :: (fp ++ c :: (sg.1 ++ es ++ rest))) = (fp, c :: (sg.1 ++ es ++ rest)) := by
    simp only [fraction, h3, h4]
  unfold decimal
  dsimp only
  rw [e, h1, h2, hfr]
  dsimp only
  rw [if_neg (fun h => hne (by rw [h.1, h.2]; rfl)), exponent_digits hsg hc hes he hr]

end Verif.Inst
