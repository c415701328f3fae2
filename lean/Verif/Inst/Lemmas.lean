import Verif.Inst.Spec
/-!
# Lemmas for the template evaluator
-/

namespace Verif.Inst
open Verif.Text

/-! ### Ignored text -/

theorem skipFuel_stable : ∀ (k : ℕ) (s : Str), s.length ≤ k → ∀ n m, s.length < n → s.length < m → skipFuel n s = skipFuel m s := by
  intro k
  induction k with
  | zero =>
    intro s hs n m hn hm
    obtain rfl : s = [] := List.length_eq_zero_iff.mp (by omega)
    obtain ⟨n, rfl⟩ : ∃ n', n = n' + 1 := ⟨n - 1, by simp at hn; omega⟩
    obtain ⟨m, rfl⟩ : ∃ n', m = n' + 1 := ⟨m - 1, by simp at hm; omega⟩
    simp [skipFuel]
  | succ k ih =>
    intro s hs n m hn hm
    obtain ⟨n, rfl⟩ : ∃ n', n = n' + 1 := ⟨n - 1, by omega⟩
    obtain ⟨m, rfl⟩ : ∃ n', m = n' + 1 := ⟨m - 1, by omega⟩
    have hl : (s.dropWhile isSpace).length ≤ s.length := (List.dropWhile_suffix _).length_le
    simp only [skipFuel]
    generalize s.dropWhile isSpace = u at hl
    cases u with
    | nil => rfl
    | cons c t =>
      dsimp only
      by_cases h : c = '#'
      · subst h
        rw [if_pos rfl, if_pos rfl]
        have : (skipComment ('#' :: t)).length ≤ t.length := by
          have e : skipComment ('#' :: t) = t.dropWhile (· != '\n') := by
            simp [skipComment]
          rw [e]
          exact (List.dropWhile_suffix _).length_le
        simp only [List.length_cons] at hl
        apply ih <;> omega
      · rw [if_neg h, if_neg h]

@[simp] theorem skip_nil : skip [] = [] := by simp [skip, skipFuel]

theorem skip_space {c : Char} (s : Str) (h : isSpace c = true) : skip (c :: s) = skip s := by
  have e : skipFuel ((c :: s).length + 1) (c :: s) = skipFuel ((c :: s).length + 1) s := by
    simp [skipFuel, h]
  rw [skip, e]
  exact skipFuel_stable _ s le_rfl _ _ (by simp; omega) (by omega)

theorem skip_hash (s : Str) : skip ('#' :: s) = skip (s.dropWhile (· != '\n')) := by
  have hs : isSpace '#' = false := by decide
  have e : skipFuel (('#' :: s).length + 1) ('#' :: s) = skipFuel ('#' :: s).length (s.dropWhile (· != '\n')) := by
    simp [skipFuel, hs, skipComment]
  rw [skip, e]
  have : (s.dropWhile (· != '\n')).length ≤ s.length := (List.dropWhile_suffix _).length_le
  exact skipFuel_stable _ _ le_rfl _ _ (by simp; omega) (by omega)

theorem skip_other {c : Char} (s : Str) (h : isSpace c = false) (h' : c ≠ '#') : skip (c :: s) = c :: s := by
  simp [skip, skipFuel, h, h']

theorem skip_length : ∀ (k : ℕ) (s : Str), s.length ≤ k → (skip s).length ≤ s.length := by
  intro k
  induction k with
  | zero =>
    intro s hs
    obtain rfl : s = [] := List.length_eq_zero_iff.mp (by omega)
    simp
  | succ k ih =>
    intro s hs
    cases s with
    | nil => simp
    | cons c t =>
      simp only [List.length_cons] at hs ⊢
      by_cases h1 : isSpace c = true
      · rw [skip_space _ h1]
        have := ih t (by omega)
        omega
      · by_cases h2 : c = '#'
        · subst h2
          rw [skip_hash]
          have h3 : (t.dropWhile (· != '\n')).length ≤ t.length := (List.dropWhile_suffix _).length_le
          have := ih (t.dropWhile (· != '\n')) (by omega)
          omega
        · rw [skip_other _ (by simpa using h1) h2]; simp

theorem skip_length' (s : Str) : (skip s).length ≤ s.length := skip_length _ s le_rfl

theorem skip_skip_aux : ∀ (k : ℕ) (s : Str), s.length ≤ k → skip (skip s) = skip s := by
  intro k
  induction k with
  | zero =>
    intro s hs
    obtain rfl : s = [] := List.length_eq_zero_iff.mp (by omega)
    simp
  | succ k ih =>
    intro s hs
    cases s with
    | nil => simp
    | cons c t =>
      simp only [List.length_cons] at hs
      by_cases h1 : isSpace c = true
      · rw [skip_space _ h1]; exact ih t (by omega)
      · by_cases h2 : c = '#'
        · subst h2
          rw [skip_hash]
          have h3 : (t.dropWhile (· != '\n')).length ≤ t.length := (List.dropWhile_suffix _).length_le
          exact ih _ (by omega)
        · rw [skip_other _ (by simpa using h1) h2, skip_other _ (by simpa using h1) h2]

@[simp] theorem skip_skip (s : Str) : skip (skip s) = skip s := skip_skip_aux _ s le_rfl

theorem skip_ign {i : Str} (h : Ign i) (s : Str) : skip (i ++ s) = skip s := by
  induction h with
  | nil => rfl
  | space c t hc _ ih => rw [List.cons_append, skip_space _ hc, ih]
  | comment t u ht _ ih =>
    rw [List.cons_append, skip_hash, List.append_assoc]
    have : (t ++ ('\n' :: u ++ s)).dropWhile (· != '\n') = '\n' :: u ++ s := by
      rw [List.dropWhile_append_of_pos]
      · simp
      · intro a ha
        simp only [bne_iff_ne, ne_eq]
        rintro rfl; exact ht ha
    rw [this, List.cons_append, skip_space _ (by decide), ih]

theorem skip_ignEnd {s : Str} (h : IgnEnd s) : skip s = [] := by
  rcases h with h | ⟨i, t, hi, ht, rfl⟩
  · simpa using skip_ign h []
  · rw [skip_ign hi, skip_hash]
    have : t.dropWhile (· != '\n') = [] := by
      have := List.dropWhile_append_of_pos (p := (· != '\n')) (l₁ := t) (l₂ := []) (by
        intro a ha
        simp only [bne_iff_ne, ne_eq]
        rintro rfl; exact ht ha)
      simpa using this
    rw [this, skip_nil]

/-! ### Consuming a character -/

theorem consume_congr {s t : Str} (c : Char) (h : skip s = skip t) : consume c s = consume c t := by
  unfold consume; rw [h]

theorem consume_skip (c : Char) (s : Str) : consume c (skip s) = consume c s := consume_congr c (skip_skip s)

theorem consume_some_iff {c : Char} {s t : Str} : consume c s = some t ↔ skip s = c :: t := by
  unfold consume
  cases h : skip s with
  | nil => simp
  | cons d u =>
    dsimp only
    by_cases hd : d = c
    · simp [hd]
    · simp [hd]

theorem consume_length {c : Char} {s t : Str} (h : consume c s = some t) : t.length < s.length := by
  have := skip_length' s
  rw [consume_some_iff.mp h, List.length_cons] at this
  omega

/-- The text after ignored text starts with none of the characters. -/
def NotNext (cs : List Char) (s : Str) : Prop := ∀ c ∈ cs, consume c s = none

theorem consume_none_of_after {c : Char} {cs : List Char} {s : Str} (h : NotNext cs s) (hc : c ∈ cs) : consume c s = none := h c hc

theorem consume_other {i : Str} (hi : Ign i) {c d : Char} (t : Str) (h : isSpace c = false) (h' : c ≠ '#') (hd : c ≠ d) :
    consume d (i ++ c :: t) = none := by
  unfold consume
  rw [skip_ign hi, skip_other _ h h']
  dsimp only
  rw [if_neg hd]

theorem consume_here {i : Str} (hi : Ign i) {c : Char} (t : Str) (h : isSpace c = false) (h' : c ≠ '#') :
    consume c (i ++ c :: t) = some t := by
  rw [consume_some_iff, skip_ign hi, skip_other _ h h']

end Verif.Inst
