import Verif.Mx.Bad
/-! # Examples for C105, C106 and C107 -/

namespace Verif.Mx
open Verif.Text
open Verif.DataFile
open Finset

/-- The text `9 12 / 12 16` with a comment on request. -/
def lit (n : String) : Lit := ⟨false, n.toList, none, none⟩
def rowA : Line := .row ⟨[' '], lit "9"⟩ [⟨['\t', ' '], lit "12"⟩] []
def rowB : Line := .row ⟨[], lit "12"⟩ [⟨[' '], lit "16"⟩] [' ', '\r']

theorem rowA_ok : rowA.OK := by
  simp [rowA, lit, Line.OK, InLine, TokOK, Lit.OK, Lit.frac, ExOK]; decide

theorem rowB_ok : rowB.OK := by
  simp [rowB, lit, Line.OK, InLine, TokOK, Lit.OK, Lit.frac, ExOK]; decide

theorem dval (n : Nat) (s : String) (h : natValue s.toList = n) : (tenths ℝ).num (lit s).val = some (n : ℝ) := by
  simp [tenths, lit, Lit.val, Lit.frac, exVal, h]

theorem contents_example (x : List Line) (hx : x.filterMap Line.toks = []) :
    contents (tenths ℝ) ([rowA] ++ x ++ [rowB, .other []]) = some [[9, 12], [12, 16]] := by
  rw [contents, List.filterMap_append, List.filterMap_append, hx]
  have h9 := dval 9 "9" rfl
  have h12 := dval 12 "12" rfl
  have h16 := dval 16 "16" rfl
  simp only [rowA, rowB, Line.toks, List.filterMap_cons, List.filterMap_nil, List.append_nil, List.cons_append, List.nil_append]
  simp [h9, h12, h16]

/-- C105: a file with comment and blank line is read. -/
example : readText (tenths ℝ) (fileOf ([rowA] ++ [.other "  # second row".toList, .other []] ++ [rowB, .other []])) =
    .ok ⟨2, 2, [[9, 12], [12, 16]]⟩ := by
  refine readText_layout _ _ ?_ 2 _ (contents_example _ rfl) ⟨by simp, by simp⟩
  intro l hl
  simp only [List.cons_append, List.nil_append, List.mem_cons, List.not_mem_nil, or_false] at hl
  rcases hl with rfl | rfl | rfl | rfl | rfl
  exacts [rowA_ok, ⟨by decide, by decide⟩, ⟨by decide, by decide⟩, rowB_ok, ⟨by decide, by decide⟩]

/-- Rows of different lengths. -/
example : readText (tenths ℚ) "1 2\n\n3\n".toList = .error .ragged :=
  readText_ragged _ _ "1 2".toList "3".toList (by decide) (by decide) (by decide)

/-- Written and read. -/
example : readText (tenths ℚ) (matText (tenths ℚ) [[1, -2, 3], [0, 1/2, 5]]) = .ok ⟨2, 3, [[1, -2, 3], [0, 1/2, 5]]⟩ := by
  refine matText_read _ 3 _ (by omega) ?_
  intro r hr
  simp only [List.mem_cons, List.not_mem_nil, or_false] at hr
  have rep : ∀ k : Int, k.natAbs ≤ 1000 → (tenths ℚ).rep (k / 10) := fun k hk => ⟨k, hk, rfl⟩
  have r1 : (tenths ℚ).rep 1 := by simpa using rep 10 (by decide)
  have r2 : (tenths ℚ).rep (-2) := by have := rep (-20) (by decide); norm_num at this; exact this
  have r3 : (tenths ℚ).rep 3 := by have := rep 30 (by decide); norm_num at this; exact this
  have r4 : (tenths ℚ).rep (1/2) := by have := rep 5 (by decide); norm_num at this ⊢; exact this
  have r5 : (tenths ℚ).rep 5 := by have := rep 50 (by decide); norm_num at this; exact this
  have r0 : (tenths ℚ).rep 0 := (tenths ℚ).rep_zero
  rcases hr with rfl | rfl <;> refine ⟨rfl, ?_⟩ <;> intro x hx <;> simp only [List.mem_cons, List.not_mem_nil, or_false] at hx <;>
    rcases hx with rfl | rfl | rfl <;> assumption

/-- Binary, and cut. -/
example : readBin (tenths ℚ) (binText (tenths ℚ) 2 [[1, 2]] ++ "more".toList) = .ok ⟨1, 2, [[1, 2]]⟩ := by decide +kernel
example : readBin (tenths ℚ) ((binText (tenths ℚ) 2 [[1, 2]]).take 20) = .error .corrupt :=
  readBin_cut _ 2 [[1, 2]] (by decide) (by decide) (by simp) _ (List.take_prefix _ _) (by decide +kernel)

/-- A solver that can do one matrix. -/
noncomputable def one : Solver ℝ := fun n d =>
  open Classical in if n = 2 ∧ d = [9, 12, 12, 16] then some ([0, 25], [8/10, -6/10, 6/10, 8/10]) else none

theorem one_correct : Correct one := by
  intro n d w z _ h
  unfold one at h
  split at h
  · rename_i e
    obtain ⟨rfl, rfl⟩ := e
    simp only [Option.some.injEq, Prod.mk.injEq] at h
    obtain ⟨rfl, rfl⟩ := h
    refine ⟨rfl, rfl, le_refl _, ?_, ?_, ?_⟩
    · intro r s hrs hs
      have hs' : s = 0 ∨ s = 1 := by omega
      have hr' : r = 0 ∨ r = 1 := by omega
      rcases hs' with rfl | rfl <;> rcases hr' with rfl | rfl <;> simp_all
    · intro r hr i hi
      have hr' : r = 0 ∨ r = 1 := by omega
      have hi' : i = 0 ∨ i = 1 := by omega
      rcases hr' with rfl | rfl <;> rcases hi' with rfl | rfl <;>
        simp [Finset.sum_range_succ, Verif.Diag.lapackMatrix] <;> norm_num
    · intro r hr s hs
      have hr' : r = 0 ∨ r = 1 := by omega
      have hs' : s = 0 ∨ s = 1 := by omega
      rcases hr' with rfl | rfl <;> rcases hs' with rfl | rfl <;>
        simp [Finset.sum_range_succ] <;> norm_num
  · simp at h

/-- C106: `diag -B -t -O u h`, then `unitary -B -l -o r u h u`. -/
example : ∃ fs' w V fs'',
    diag (tenths ℝ) 100 one ⟨false, true, 1, none, some "u".toList⟩ (fileOf [rowA, rowB, .other []])
      (write (fun _ => none) "h".toList (fileOf [rowA, rowB, .other []])) = .done fs' ∧
    Eigen 2 (matOf 2 [[9, 12], [12, 16]]).e w V ∧
    unitary (tenths ℝ) true 100 ⟨true, false, true, 1, 0, some "r".toList⟩ "u".toList "h".toList "u".toList fs' = .ok fs'' ∧
    fs'' "r".toList = some (matText (tenths ℝ) (rowsOf ⟨2, 2, fun i j => cut (tenths ℝ) 0 (1 * if i = j then w.getD i 0 else 0)⟩)) := by
  have hm := contents_example [] rfl
  simp only [List.cons_append, List.nil_append, List.append_nil] at hm
  have hok : ∀ l ∈ [rowA, rowB, .other []], l.OK ∧ l.NoComment := by
    intro l hl
    simp only [List.mem_cons, List.not_mem_nil, or_false] at hl
    rcases hl with rfl | rfl | rfl
    exacts [⟨rowA_ok, trivial⟩, ⟨rowB_ok, trivial⟩, ⟨⟨by decide, by decide⟩, by simp [Line.NoComment, InLine]⟩]
  have hone : one 2 [9, 12, 12, 16] = some ([0, 25], [8/10, -6/10, 6/10, 8/10]) := by simp [one]
  rcases diag_spec (tenths ℝ) 100 one one_correct ⟨false, true, 1, none, some "u".toList⟩ [rowA, rowB, .other []] hok _ hm 2 (by omega) (by omega) rfl
    (write (fun _ => none) "h".toList (fileOf [rowA, rowB, .other []])) with hf | ⟨w, U, fs', e, _⟩
  · exfalso
    have hnum := numbers_lines (tenths ℝ) _ hok _ hm [] sep_nil (readOne_nil _)
    rw [List.append_nil] at hnum
    have hs : Nat.sqrt 4 = 2 := Nat.sqrt_eq 2
    have hfl : ([[9, 12], [12, 16]] : List (List ℝ)).flatten = [9, 12, 12, 16] := rfl
    rw [hfl] at hnum
    unfold diag at hf
    simp [hnum, hs, diagonalize, hone] at hf
  · obtain ⟨w', V, fs'', h1, h2, _, h4⟩ := diag_unitary (tenths ℝ) true 100 one one_correct ⟨false, true, 1, none, some "u".toList⟩
      ⟨true, false, true, 1, 0, some "r".toList⟩ [rowA, rowB, .other []] hok _ hm (by simp) (by simp) (by norm_num) (by simp)
      (by
        intro i hi j hj
        simp only [List.length_cons, List.length_nil] at hi hj
        have hi' : i = 0 ∨ i = 1 := by omega
        have hj' : j = 0 ∨ j = 1 := by omega
        rcases hi' with rfl | rfl <;> rcases hj' with rfl | rfl <;> rfl)
      _ fs' "h".toList "u".toList "r".toList (by simp [write]) rfl (by decide) (by simp) (by simp) ⟨rfl, rfl, rfl⟩ e
      (by
        intro w z hz x hx
        have hz' : one 2 [9, 12, 12, 16] = some (w, z) := hz
        rw [hone] at hz'
        simp only [Option.some.injEq, Prod.mk.injEq] at hz'
        rw [← hz'.2] at hx
        simp only [List.mem_cons, List.not_mem_nil, or_false] at hx
        rcases hx with rfl | rfl | rfl | rfl
        exacts [⟨8, by decide, by norm_num⟩, ⟨-6, by decide, by norm_num⟩, ⟨6, by decide, by norm_num⟩, ⟨8, by decide, by norm_num⟩])
    exact ⟨fs', w', V, fs'', e, h1, h2, h4⟩

/-- C107: the same file with a comment after the first row: two numbers, which is not a square. -/
example (fs : Files) (o : DOpt ℝ) :
    diag (tenths ℝ) 100 one o (fileOf [rowA] ++ '\n' :: '#' :: "c\n12 16\n".toList) fs = .notSquare := by
  have hm : contents (tenths ℝ) [rowA] = some [[9, 12]] := by
    have h9 := dval 9 "9" rfl
    have h12 := dval 12 "12" rfl
    rw [contents]
    simp only [rowA, Line.toks, List.filterMap_cons, List.filterMap_nil]
    simp [h9, h12]
  have hok : ∀ l ∈ [rowA], l.OK ∧ l.NoComment := by
    intro l hl
    rw [List.mem_singleton.mp hl]
    exact ⟨rowA_ok, trivial⟩
  rw [diag_ignores_rest (tenths ℝ) 100 one o [rowA] hok _ hm '#' _ (by decide)]
  rcases diag_refuses (tenths ℝ) 100 one o [rowA] hok _ hm
    (by intro n hn; simp; intro e; rcases Nat.lt_or_ge n 2 with h | h
        · have : n = 1 := by omega
          subst this; omega
        · nlinarith) fs with h | h
  · exfalso
    have hnum := numbers_lines (tenths ℝ) [rowA] hok _ hm [] sep_nil (readOne_nil _)
    rw [List.append_nil] at hnum
    have hfl : ([[9, 12]] : List (List ℝ)).flatten = [9, 12] := rfl
    rw [hfl] at hnum
    unfold diag at h
    dsimp only at h
    rw [hnum, if_neg (by simp)] at h
    split at h
    · simp at h
    · unfold diagonalize at h
      split at h
      · simp at h
      · split at h <;> simp at h
  · exact h

/-- The hypotheses of the theorem on matrices that are not symmetric can be met by a solver. -/
example : ∃ ls : List Line, (∀ l ∈ ls, l.OK ∧ l.NoComment) ∧ contents (tenths ℝ) ls = some [[0, 1], [0, 0]] := by
  have r0 : (tenths ℝ).rep 0 := (tenths ℝ).rep_zero
  have r1 : (tenths ℝ).rep 1 := ⟨10, by decide, by norm_num⟩
  obtain ⟨ls, h1, _, h3⟩ := mat_lines (tenths ℝ) [[0, 1], [0, 0]] (by
    intro r hr
    simp only [List.mem_cons, List.not_mem_nil, or_false] at hr
    rcases hr with rfl | rfl <;> refine ⟨by simp, ?_⟩ <;> intro x hx <;> simp only [List.mem_cons, List.not_mem_nil, or_false] at hx <;>
      rcases hx with rfl | rfl <;> assumption)
  exact ⟨ls, h1, h3⟩

end Verif.Mx
