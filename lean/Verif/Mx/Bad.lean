import Verif.Mx.Dia
import Verif.Text.Props
import Mathlib.Data.Rat.Floor
import Mathlib.Algebra.Order.Floor.Ring
/-!
# C107: files that are not what they should be; examples
-/

namespace Verif.Mx
open Verif.Text
open Verif.DataFile
open Verif.Mat (Mat)
open Finset

/-! ## A format

Multiples of one tenth up to one hundred, written with an exponent. -/

section fmt
variable {K : Type} [Field K] [LinearOrder K] [IsStrictOrderedRing K] [FloorRing K]

/-- A number as written. -/
def tenthLit (k : Int) : Lit := ⟨decide (k < 0), natStr k.natAbs, none, some ⟨false, some true, ['1']⟩⟩

theorem tenthLit_ok (k : Int) : (tenthLit k).OK := by
  refine ⟨fun c hc => natStr_isDigit _ c hc, by simp [tenthLit, Lit.frac], Or.inl ?_, ?_⟩
  · intro e
    have e' : natStr k.natAbs = [] := e
    unfold natStr at e'
    split at e'
    · simp at e'
    · rename_i hne
      simp only [List.map_eq_nil_iff, List.reverse_eq_nil_iff, Nat.digits_eq_nil_iff_eq_zero] at e'
      exact hne e'
  · intro x hx
    simp only [tenthLit, Option.mem_some_iff] at hx
    subst hx
    exact ⟨by simp, by simp; decide⟩

theorem tenthLit_val (k : Int) : (tenthLit k).val = ⟨k, -1⟩ := by
  have h : natValue (natStr k.natAbs) = k.natAbs := natStr_value _
  simp only [Lit.val, tenthLit, Lit.frac, List.append_nil, h, exVal, if_true, List.length_nil]
  have h1 : natValue ['1'] = 1 := rfl
  rw [h1]
  by_cases hk : k < 0
  · simp [hk, abs_of_neg hk]
  · simp [hk]; omega

/-- A format for the examples. -/
def tenths (K : Type) [Field K] [LinearOrder K] [IsStrictOrderedRing K] [FloorRing K] : Fmt K where
  num d := some ((d.m : K) * (10 : K) ^ d.e)
  put x := (tenthLit ⌊10 * x⌋).text
  enc x := Char.ofNat (⌊10 * x⌋ + 1000).toNat :: List.replicate 7 ' '
  dec s := match s with
    | c :: _ => some (((c.toNat : Int) - 1000 : Int) / 10)
    | [] => none
  rep x := ∃ k : Int, k.natAbs ≤ 1000 ∧ x = k / 10
  zero := 0
  put_lit := by
    rintro x ⟨k, _, rfl⟩
    have h10 : (10 : K) ≠ 0 := by norm_num
    have e : (10 : K) * (k / 10) = k := by field_simp
    refine ⟨tenthLit k, tenthLit_ok k, by rw [e, Int.floor_intCast], ?_⟩
    rw [tenthLit_val]
    simp [div_eq_mul_inv]
  enc_len := by intro x; simp
  dec_enc := by
    rintro x ⟨k, hk, rfl⟩
    have e : (10 : K) * (k / 10) = k := by field_simp
    have hn : (k + 1000).toNat < 0xd800 := by omega
    have hc : (Char.ofNat (k + 1000).toNat).toNat = (k + 1000).toNat := by
      have hv : (k + 1000).toNat.isValidChar := Or.inl hn
      rw [Char.ofNat, dif_pos hv]
      rfl
    simp only [e, Int.floor_intCast, hc]
    have : (((k + 1000).toNat : Int) - 1000 : Int) = k := by omega
    rw [this]
  rep_zero := ⟨0, by simp, by simp⟩

end fmt

/-! ## What goes wrong -/

/-- The input of `diag` ends silently at the first thing that is not a number. -/
theorem diag_ignores_rest (F : Fmt ℝ) (lim : Nat) (dsyev : Solver ℝ) (o : DOpt ℝ) (ls : List Line)
    (h : ∀ l ∈ ls, l.OK ∧ l.NoComment) (m : List (List ℝ)) (hm : contents F ls = some m) (c : Char) (rest : Str)
    (hc : isSpace c = false ∧ isDigit c = false ∧ c ≠ '+' ∧ c ≠ '-' ∧ c ≠ '.') (fs : Files) :
    diag F lim dsyev o (fileOf ls ++ '\n' :: c :: rest) fs = diag F lim dsyev o (fileOf ls) fs := by
  have hj : readOne F ('\n' :: c :: rest) = none := by
    obtain ⟨h1, h2, h3, h4, h5⟩ := hc
    have e : readOne F ('\n' :: c :: rest) = readOne F (c :: rest) := readOne_blank F blank_nl _
    have es : readSign (c :: rest) = (false, c :: rest) := by
      unfold readSign
      split
      · rename_i heq; simp at heq; exact absurd heq.1 h4
      · rename_i heq; simp at heq; exact absurd heq.1 h3
      · rfl
    have ef : readFrac (c :: rest) = ([], c :: rest) := by
      unfold readFrac
      split
      · rename_i heq; simp at heq; exact absurd heq.1 h5
      · rfl
    have ed : readDec (c :: rest) = none := by
      unfold readDec
      simp only [List.dropWhile_cons, h1, es, List.takeWhile_cons, h2, ef, Bool.false_eq_true, if_false]
      simp
    rw [e, readOne, ed]
  have h1 := numbers_lines F ls h m hm _ (Verif.Table.sep_nl _) hj
  have h2 := numbers_lines F ls h m hm [] sep_nil (readOne_nil F)
  rw [List.append_nil] at h2
  unfold diag
  rw [h1, h2]

/-- The same file is a matrix of dimension four for `unitary` and, because of a comment, one of dimension two for `diag`. -/
theorem diag_unitary_disagree :
    readText (tenths ℚ) "1 2 3 4\n# second row\n5 6 7 8\n1 1 1 1\n2 2 2 2\n".toList =
      .ok ⟨4, 4, [[1, 2, 3, 4], [5, 6, 7, 8], [1, 1, 1, 1], [2, 2, 2, 2]]⟩ ∧
    numbers (tenths ℚ) "1 2 3 4\n# second row\n5 6 7 8\n1 1 1 1\n2 2 2 2\n".toList = [1, 2, 3, 4] := by
  decide +kernel

/-- A word that is not a number shifts all that follows, without a message: the last number is lost. -/
theorem readText_shifts : readText (tenths ℚ) "1-2 3\n".toList = .ok ⟨1, 2, [[1, -2]]⟩ := by
  decide +kernel

/-- A matrix that is not symmetric is diagonalised as if it were: none of the reported eigenvectors of `0 1 / 0 0` is one. -/
theorem diag_not_symmetric (F : Fmt ℝ) (lim : Nat) (dsyev : Solver ℝ) (hd : Correct dsyev) (o : DOpt ℝ) (ls : List Line)
    (h : ∀ l ∈ ls, l.OK ∧ l.NoComment) (hm : contents F ls = some [[0, 1], [0, 0]]) (hl : 2 ≤ lim) (fs fs' : Files)
    (hdone : diag F lim dsyev o (fileOf ls) fs = .done fs') :
    ∃ w U, dsyev 2 [0, 1, 0, 0] = some (w, U.flatten) ∧ DiagFiles F o 2 w U fs fs' ∧
      ∀ r < 2, ¬ ∀ i < 2, ∑ j ∈ range 2, (matOf 2 [[0, 1], [0, 0]]).e i j * (matOf 2 U).e r j = w.getD r 0 * (matOf 2 U).e r i := by
  rcases diag_spec F lim dsyev hd o ls h [[0, 1], [0, 0]] hm 2 (by omega) hl rfl fs with hf | ⟨w, U, fs1, e1, hE, hF, hz⟩
  · rw [hdone] at hf; simp at hf
  rw [hdone] at e1
  have : fs' = fs1 := by simpa using e1
  subst this
  refine ⟨w, U, hz, hF, fun r hr hall => ?_⟩
  have a0 := hE.eigen r hr 0 (by omega)
  have a1 := hE.eigen r hr 1 (by omega)
  have b0 := hall 0 (by omega)
  have b1 := hall 1 (by omega)
  have n1 := hE.ortho r hr r hr
  simp only [Finset.sum_range_succ, Finset.sum_range_zero, zero_add, if_true] at a0 a1 b0 b1 n1
  have m00 : (matOf 2 [[0, 1], [0, (0 : ℝ)]]).e 0 0 = 0 := rfl
  have m01 : (matOf 2 [[0, 1], [0, (0 : ℝ)]]).e 0 1 = 1 := rfl
  have m10 : (matOf 2 [[0, 1], [0, (0 : ℝ)]]).e 1 0 = 0 := rfl
  have m11 : (matOf 2 [[0, 1], [0, (0 : ℝ)]]).e 1 1 = 0 := rfl
  have s10 : Verif.Diag.hermitianOfUpper (square 2 [[0, 1], [0, (0 : ℝ)]].flatten) 1 0 = 1 := by
    simp [Verif.Diag.hermitianOfUpper, square]
  have s11 : Verif.Diag.hermitianOfUpper (square 2 [[0, 1], [0, (0 : ℝ)]].flatten) 1 1 = 0 := by
    simp [Verif.Diag.hermitianOfUpper, square]
  rw [m00, m01] at b0
  rw [m10, m11] at b1
  rw [s10, s11] at a1
  have u0 : (matOf 2 U).e r 0 = 0 := by linarith
  rw [u0] at b0 n1
  have u1 : (matOf 2 U).e r 1 = 0 := by linarith
  rw [u1] at n1
  norm_num at n1

end Verif.Mx
