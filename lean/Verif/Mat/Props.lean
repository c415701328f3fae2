import Verif.Mat.Model
import Mathlib.Algebra.Order.Star.Basic
import Mathlib.Algebra.Order.Ring.Rat
import Mathlib.Algebra.Field.Rat
import Mathlib.Tactic.Ring
import Mathlib.Tactic.NormNum
/-!
# C38: the matrix helpers mean what they say on every shape

The statements give the size and every entry of the result as explicit sums over
the entries of the arguments.
-/

namespace Verif.Mat
open Finset
variable {K : Type} [Field K] [StarRing K]

/-- C38.  `prod_fit` is the product with the larger operand restricted to the
common index range, whatever the sizes; it never fails.  (With no rows or no
columns the `0 × 0` matrix is returned.) -/
theorem prodFit_spec (A B : Mat K) :
    ∃ C, prodFit A B = some C ∧
      (A.r ≠ 0 → B.c ≠ 0 → C.r = A.r ∧ C.c = B.c) ∧ (A.r = 0 ∨ B.c = 0 → C.r = 0 ∧ C.c = 0) ∧
      ∀ i < C.r, ∀ j < C.c, C.e i j = ∑ k ∈ range (min A.c B.r), A.e i k * B.e k j := by
  by_cases h : B.r ≤ A.c
  · by_cases h0 : A.r = 0 ∨ B.c = 0
    · refine ⟨empty, by simp [prodFit, prodFitLeft, h, h0], ?_, fun _ => ⟨rfl, rfl⟩, ?_⟩
      · intro h1 h2; exact absurd h0 (by simp [h1, h2])
      · intro i hi; exact absurd hi (by simp [empty, zero])
    · refine ⟨mul ⟨A.r, B.r, fun i j => A.e i j⟩ B, by simp [prodFit, prodFitLeft, h, h0, submatrix], ?_, ?_, ?_⟩
      · intro _ _; exact ⟨rfl, rfl⟩
      · intro h1; exact absurd h1 h0
      · intro i _ j _; simp only [mul, Nat.min_eq_right h]
  · have h' : A.c ≤ B.r := by omega
    by_cases h0 : A.r = 0 ∨ B.c = 0
    · refine ⟨empty, by simp [prodFit, prodFitRight, h, h', h0], ?_, fun _ => ⟨rfl, rfl⟩, ?_⟩
      · intro h1 h2; exact absurd h0 (by simp [h1, h2])
      · intro i hi; exact absurd hi (by simp [empty, zero])
    · refine ⟨mul A ⟨A.c, B.c, fun i j => B.e i j⟩, by simp [prodFit, prodFitRight, h, h', h0, submatrix], ?_, ?_, ?_⟩
      · intro _ _; exact ⟨rfl, rfl⟩
      · intro h1; exact absurd h1 h0
      · intro i _ j _; simp only [mul, Nat.min_eq_left h']

/-- C38.  `prod_fit_left` and `prod_fit_right` succeed exactly when the operand
that is trimmed is the larger one, and then agree with `prod_fit`. -/
theorem prodFitLeft_right_spec (A B : Mat K) :
    (B.r ≤ A.c → prodFitLeft A B = prodFit A B) ∧ (A.c < B.r → prodFitLeft A B = none) ∧
    (A.c < B.r → prodFitRight A B = prodFit A B) ∧ (B.r < A.c → prodFitRight A B = none) := by
  refine ⟨fun h => by simp [prodFit, h], fun h => ?_, fun h => ?_, fun h => ?_⟩
  · have : ¬ B.r ≤ A.c := by omega
    simp [prodFitLeft, this]
  · have : ¬ B.r ≤ A.c := by omega
    simp [prodFit, this]
  · have : ¬ B.r ≥ A.c := by omega
    simp [prodFitRight]; omega

/-- C38.  `prod_adj_fit_left` is `A^† B` with the rows of `A` restricted to those of
`B`, and fails exactly when `A` has fewer rows than `B`. -/
theorem prodAdjFitLeft_spec (A B : Mat K) :
    (prodAdjFitLeft A B = none ↔ A.r < B.r) ∧
    ∀ C, prodAdjFitLeft A B = some C →
      (A.c ≠ 0 → B.c ≠ 0 → C.r = A.c ∧ C.c = B.c) ∧
      ∀ i < C.r, ∀ j < C.c, C.e i j = ∑ k ∈ range B.r, star (A.e k i) * B.e k j := by
  by_cases h : B.r ≤ A.r
  · by_cases h0 : A.c = 0 ∨ B.c = 0
    · have e : prodAdjFitLeft A B = some empty := by simp [prodAdjFitLeft, h, h0]
      rw [e]
      refine ⟨by simp; exact h, fun C hC => ?_⟩
      obtain rfl : empty = C := by simpa using hC
      refine ⟨fun h1 h2 => absurd h0 (by simp [h1, h2]), fun i hi => absurd hi (by simp [empty, zero])⟩
    · have e : prodAdjFitLeft A B = some (mul (adj ⟨B.r, A.c, fun i j => A.e i j⟩) B) := by
        simp [prodAdjFitLeft, h, h0, submatrix]
      rw [e]
      refine ⟨by simp; exact h, fun C hC => ?_⟩
      obtain rfl := Option.some.inj hC
      exact ⟨fun _ _ => ⟨rfl, rfl⟩, fun i _ j _ => rfl⟩
  · have e : prodAdjFitLeft A B = none := by simp [prodAdjFitLeft, h]
    rw [e]
    exact ⟨by simp; omega, fun C hC => absurd hC (by simp)⟩

/-- C38.  `trim_matrix` keeps the leading `n1 × n2` entries; it fails exactly
when a non-empty matrix would have to grow; an empty matrix is returned as it is. -/
theorem trim_spec (A : Mat K) (n1 n2 : ℕ) :
    (A.r = 0 ∨ A.c = 0 → trim A n1 n2 = some A) ∧
    (A.r ≠ 0 → A.c ≠ 0 → (n1 ≤ A.r ∧ n2 ≤ A.c →
        ∃ C, trim A n1 n2 = some C ∧ C.r = n1 ∧ C.c = n2 ∧ ∀ i j, C.e i j = A.e i j) ∧
      (¬ (n1 ≤ A.r ∧ n2 ≤ A.c) → trim A n1 n2 = none)) := by
  refine ⟨fun h => by simp [trim, h], fun h1 h2 => ⟨fun h => ?_, fun h => by simp only [trim, h1, h2, or_self, if_false, h]⟩⟩
  by_cases he : n1 = A.r ∧ n2 = A.c
  · exact ⟨A, by simp [trim, h1, h2, he], he.1.symm, he.2.symm, fun _ _ => rfl⟩
  · exact ⟨⟨n1, n2, fun i j => A.e i j⟩, by simp [trim, h1, h2, h, he, submatrix], rfl, rfl, fun _ _ => rfl⟩

/-- C38.  `submatrix` reads rows `r1 … r2-1` and columns `c1 … c2-1` of its argument,
and fails exactly when that window does not lie inside it. -/
theorem submatrix_spec (A : Mat K) (r1 r2 c1 c2 : ℕ) :
    (∀ C, submatrix A r1 r2 c1 c2 = some C → C.r = r2 - r1 ∧ C.c = c2 - c1 ∧
      ∀ i j, r1 ≤ i → c1 ≤ j → C.e (i - r1) (j - c1) = A.e i j) ∧
    (submatrix A r1 r2 c1 c2 = none ↔ ¬ (r1 ≤ r2 ∧ r2 ≤ A.r ∧ c1 ≤ c2 ∧ c2 ≤ A.c)) := by
  constructor
  · intro C h
    simp only [submatrix] at h
    split at h
    · cases h
      refine ⟨rfl, rfl, fun i j hi hj => ?_⟩
      simp only [Nat.add_sub_cancel' hi, Nat.add_sub_cancel' hj]
    · cases h
  · simp [submatrix]

/-- Non-vacuity: the lower right corner of a 3 × 3 matrix. -/
example : (submatrix (⟨3, 3, fun i j => (3 * i + j : ℚ)⟩ : Mat ℚ) 1 3 1 3).map
    (fun C => (C.r, C.c, C.e 0 0, C.e 1 0)) = some (2, 2, 4, 7) := by
  norm_num [submatrix]

private theorem finite_iff (A : Mat K) : finiteSize A = true ↔ A.r ≠ 0 ∧ A.c ≠ 0 := by
  simp [finiteSize]

/-- C38.  `product`: `M += factor * A * B^†`; sizes must match. -/
theorem product_spec (M A B : Mat K) (f : K) (h1 : M.r = A.r) (h2 : A.c = B.c) (h3 : B.r = M.c) :
    ∃ C, product M f A B = some C ∧ C.r = M.r ∧ C.c = M.c ∧
      ∀ i < M.r, ∀ j < M.c, C.e i j = M.e i j + f * ∑ k ∈ range A.c, A.e i k * star (B.e j k) := by
  by_cases hf : finiteSize A && finiteSize B
  · exact ⟨axpy M f (mul A (adj B)), by simp only [product, hf, if_true]; rw [if_pos ⟨h1, h2, h3⟩], rfl, rfl, fun i _ j _ => rfl⟩
  · refine ⟨M, by simp [product, hf], rfl, rfl, fun i hi j hj => ?_⟩
    have : A.c = 0 := by
      simp only [Bool.and_eq_true, finite_iff, not_and_or, not_not] at hf
      omega
    simp [this]

/-- C38.  `transform`: `M += factor * A * O * B^†`; sizes must match. -/
theorem transform_spec (M A O B : Mat K) (f : K) (h1 : M.r = A.r) (h2 : A.c = O.r) (h3 : O.c = B.c) (h4 : B.r = M.c) :
    ∃ C, transform M f A O B = some C ∧ C.r = M.r ∧ C.c = M.c ∧
      ∀ i < M.r, ∀ j < M.c, C.e i j = M.e i j +
        f * ∑ l ∈ range O.c, (∑ k ∈ range O.r, A.e i k * O.e k l) * star (B.e j l) := by
  by_cases hf : finiteSize A && finiteSize B
  · exact ⟨axpy M f (mul (mul A O) (adj B)), by simp only [transform, hf, if_true]; rw [if_pos ⟨h1, h2, h3, h4⟩], rfl, rfl, fun i _ j _ => by
      simp only [axpy, mul, adj, h2]⟩
  · refine ⟨M, by simp [transform, hf], rfl, rfl, fun i hi j hj => ?_⟩
    have : O.r = 0 ∨ O.c = 0 := by
      simp only [Bool.and_eq_true, finite_iff, not_and_or, not_not] at hf
      omega
    rcases this with h | h <;> simp [h]

/-- C38.  `rotate`: `M += factor * U^† * O * U`; sizes must match. -/
theorem rotate_spec (M U O : Mat K) (f : K) (h1 : M.r = U.c) (h2 : U.r = O.r) (h3 : O.c = U.r) (h4 : U.c = M.c) :
    ∃ C, rotate M f U O = some C ∧ C.r = M.r ∧ C.c = M.c ∧
      ∀ i < M.r, ∀ j < M.c, C.e i j = M.e i j +
        f * ∑ l ∈ range U.r, ∑ k ∈ range U.r, star (U.e k i) * O.e k l * U.e l j := by
  by_cases hf : finiteSize U
  · refine ⟨axpy M f (mul (mul (adj U) O) U), by simp only [rotate, hf, if_true]; rw [if_pos ⟨h1, h2, h3, h4⟩], rfl, rfl, fun i _ j _ => ?_⟩
    simp only [axpy, mul, adj, h3, sum_mul]
  · refine ⟨M, by simp [rotate, hf], rfl, rfl, fun i hi j hj => ?_⟩
    have : U.r = 0 := by
      simp only [finite_iff, not_and_or, not_not] at hf
      omega
    simp [this]

/-- C38.  Rotating a diagonal operator with the specialised routine gives the
same result as the general rotation (same failures, same entries). -/
theorem rotateDiagonal_eq_rotate (M U O : Mat K) (f : K)
    (hO : ∀ i < O.r, ∀ j < O.c, i ≠ j → O.e i j = 0) :
    (rotateDiagonal M f U O = none ↔ rotate M f U O = none) ∧
    ∀ C D, rotateDiagonal M f U O = some C → rotate M f U O = some D → C.Eqv D := by
  by_cases hf : finiteSize U
  · by_cases hs : M.r = U.c ∧ U.r = O.r ∧ O.c = U.r ∧ U.c = M.c
    · have e1 : rotateDiagonal M f U O = some (axpy M f (mul (adj U) ⟨U.r, U.c, fun i j => O.e i i * U.e i j⟩)) := by
        simp only [rotateDiagonal, hf, if_true]; rw [if_pos hs]
      have e2 : rotate M f U O = some (axpy M f (mul (mul (adj U) O) U)) := by
        simp only [rotate, hf, if_true]; rw [if_pos hs]
      rw [e1, e2]
      refine ⟨by simp, fun C D hC hD => ?_⟩
      obtain rfl := Option.some.inj hC
      obtain rfl := Option.some.inj hD
      refine ⟨rfl, rfl, fun i _ j _ => ?_⟩
      simp only [axpy, mul, adj, hs.2.2.1]
      congr 2
      refine sum_congr rfl fun l hl => ?_
      rw [sum_eq_single_of_mem l hl]
      · ring
      · intro k hk hkl
        rw [hO k (by simpa [← hs.2.1] using hk) l (by simpa [hs.2.2.1] using hl) hkl, mul_zero]
    · have e1 : rotateDiagonal M f U O = none := by
        simp only [rotateDiagonal, hf, if_true]; rw [if_neg hs]
      have e2 : rotate M f U O = none := by
        simp only [rotate, hf, if_true]; rw [if_neg hs]
      rw [e1, e2]
      exact ⟨by simp, fun C D hC => absurd hC (by simp)⟩
  · have e1 : rotateDiagonal M f U O = some M := by simp [rotateDiagonal, hf]
    have e2 : rotate M f U O = some M := by simp [rotate, hf]
    rw [e1, e2]
    refine ⟨by simp, fun C D hC hD => ?_⟩
    obtain rfl := Option.some.inj hC
    obtain rfl := Option.some.inj hD
    exact ⟨rfl, rfl, fun _ _ _ _ => rfl⟩

/-- C38.  `trace_contract` over the common range is the trace of the product of
the leading blocks, in either order. -/
theorem traceContract_spec (A B A' B' : Mat K) (n : ℕ) (hA : submatrix A 0 n 0 n = some A')
    (hB : submatrix B 0 n 0 n = some B') :
    traceContract A B n = trace (mul A' B') ∧ traceContract A B n = trace (mul B' A') := by
  have a : A' = ⟨n, n, fun i j => A.e i j⟩ := by
    simp only [submatrix] at hA; split at hA
    · simpa using (Option.some.inj hA).symm
    · simp at hA
  have b : B' = ⟨n, n, fun i j => B.e i j⟩ := by
    simp only [submatrix] at hB; split at hB
    · simpa using (Option.some.inj hB).symm
    · simp at hB
  subst a b
  refine ⟨rfl, ?_⟩
  simp only [traceContract, trace, mul]
  rw [sum_comm]
  exact sum_congr rfl fun i _ => sum_congr rfl fun j _ => by ring

private def exA : Mat ℚ := ⟨2, 3, fun i j => i + 2 * j⟩
private def exB : Mat ℚ := ⟨2, 2, fun i j => i * j + 1⟩
example : (prodFit exA exB).map (fun C => (C.r, C.c, C.e 0 0, C.e 1 1)) = some (2, 2, 2, 7) := by
  decide +kernel
example : (prodFitRight exA exB).isNone = true := by decide +kernel
private def exU : Mat ℚ := ⟨2, 1, fun i _ => i + 1⟩
private def exO : Mat ℚ := ⟨2, 2, fun i j => if i = j then i + 1 else 0⟩
example : (rotate (zero 1 1) 1 exU exO).map (fun C => C.e 0 0) = some 9 := by decide +kernel
example : (rotateDiagonal (zero 1 1) 1 exU exO).map (fun C => C.e 0 0) = some 9 := by decide +kernel
example : ∀ i < exO.r, ∀ j < exO.c, i ≠ j → exO.e i j = 0 := by
  intro i _ j _ h; simp [exO, h]

end Verif.Mat
