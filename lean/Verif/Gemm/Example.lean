import Verif.Gemm.Callers
import Mathlib.Algebra.Star.Rat
import Mathlib.Algebra.Field.Rat
/-!
# Examples for the products in memory
-/

namespace Verif.Gemm.Example
open Verif.Gemm
open Verif.Mat (Mat)

/-- Memory with the given first cells. -/
def cells (l : List ℚ) : Mem ℚ := fun p => l[p]?

/-- The last three columns of a `2 × 4` matrix. -/
def A : Arr ℚ := ⟨cells [0, 1, 2, 3, 4, 5, 6, 7], ⟨1, 2, 3, 1, 4⟩⟩
def MA : Mat ℚ := ⟨2, 3, fun i j => 4 * i + j + 1⟩

/-- A `2 × 3` matrix. -/
def B : Arr ℚ := ⟨cells [1, 0, 2, 0, 1, 1], ⟨0, 2, 3, 1, 3⟩⟩
def MB : Mat ℚ := ⟨2, 3, fun i j => if i = 0 then (if j = 0 then 1 else if j = 1 then 0 else 2) else if j = 0 then 0 else 1⟩

/-- The lower right corner of a `3 × 3` matrix. -/
def C : Arr ℚ := ⟨cells [9, 9, 9, 9, 1, 2, 9, 3, 4], ⟨4, 2, 2, 1, 3⟩⟩
def MC : Mat ℚ := ⟨2, 2, fun i j => 2 * i + j + 1⟩

theorem hA : Holds A MA ∧ Fine 100 A.v := by unfold Holds Fine; decide +kernel
theorem hB : Holds B MB ∧ Fine 100 B.v := by unfold Holds Fine; decide +kernel
theorem hC : Holds C MC ∧ Fine 100 C.v := by unfold Holds Fine; decide +kernel

/-- The theorems apply: `C += 2 A B†` with blocks of larger matrices. -/
example : ∃ R, Verif.Mat.product MC 2 MA MB = some R := ⟨_, rfl⟩

example : ∃ mem, product true 100 C 2 A B = .ok mem ∧ (List.range 9).map mem = [some 9, some 9, some 9, some 9, some 15, some 12, some 9, some 41, some 30] := by
  refine ⟨_, rfl, ?_⟩
  decide +kernel

example : ∃ mem, gemmRow true 100 1 A .none B .trans 0 (alloc ℚ 2 2) = .ok mem ∧ (List.range 5).map mem = [some 7, some 5, some 19, some 13, none] := by
  refine ⟨_, rfl, ?_⟩
  decide +kernel

/-- The hypotheses of `gemm_mismatch`, and of `gemm_range`. -/
example : opCols .none A.v ≠ opRows .none B.v := by decide
example : opRows .none A.v ≠ 0 ∧ opCols .conj B.v ≠ 0 ∧ opCols .none A.v ≠ 0 := by decide

/-- A matrix too large for the range of the BLAS. -/
example : gemmRow true 2 1 A .none B .trans 0 (alloc ℚ 2 2) = .error .range := rfl

end Verif.Gemm.Example

namespace Verif.Gemm

/-- **The size of the result is only checked by an assertion.** Compiled without assertions (the default build), a product into a matrix that is too
small writes outside of it. -/
theorem gemm_overrun : ∃ (A B C : Arr ℚ) (mem : Mem ℚ), gemmRow true 100 1 A .none B .none 0 C = .error .assertion ∧
    gemmRow false 100 1 A .none B .none 0 C = .ok mem ∧ ¬ Elsewhere C.v C.mem mem := by
  refine ⟨⟨Example.cells [1, 2], ⟨0, 2, 1, 1, 1⟩⟩, ⟨Example.cells [1], ⟨0, 1, 1, 1, 1⟩⟩, alloc ℚ 1 1, _, rfl, rfl, ?_⟩
  intro h
  have h1 := h 1 (by decide)
  revert h1
  decide +kernel

end Verif.Gemm
