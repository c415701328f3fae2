import Verif.Diag.Model
import Mathlib.Analysis.Complex.Basic
import Mathlib.Data.Nat.Cast.Order.Ring
/-!
# C62: the stored eigenpairs diagonalise the Hamiltonian block; C69: workspace
-/

namespace Verif.Diag
open Verif.Mat Finset
variable {𝕜 : Type} [RCLike 𝕜]

/-- The Hermitian matrix that the upper triangle of `m` determines. -/
def hermitianOfUpper (m : Mat 𝕜) (i j : ℕ) : 𝕜 := if i ≤ j then m.e i j else star (m.e j i)

/-- The Hermitian matrix that LAPACK sees in the memory `a` with
`UPLO = 'L'`, leading dimension `n`: element `(i, j)` is at `i + n j`, only
`i ≥ j` is looked at. -/
def lapackMatrix (n : ℕ) (a : ℕ → 𝕜) (i j : ℕ) : 𝕜 := if j ≤ i then a (i + n * j) else star (a (j + n * i))

/-- The contract of `dsyev*`/`zheev*` with `JOBZ = 'V'`, `UPLO = 'L'`: `M`
eigenvalues in ascending order; eigenvector `r` is column `r` of the output
array; the eigenvectors are orthonormal.  The diagonal of the input must be
real. -/
structure LapackContract (n : ℕ) (a : ℕ → 𝕜) (M : ℕ) (w : ℕ → ℝ) (z : ℕ → 𝕜) : Prop where
  count : M ≤ n
  ascending : ∀ r s, r ≤ s → s < M → w r ≤ w s
  eigen : ∀ r < M, ∀ i < n, ∑ j ∈ range n, lapackMatrix n a i j * z (j + n * r) = (w r : 𝕜) * z (i + n * r)
  ortho : ∀ r < M, ∀ s < M, ∑ i ∈ range n, star (z (i + n * r)) * z (i + n * s) = if r = s then 1 else 0

/-- The memory handed to LAPACK holds the matrix row by row, for both storage
orders. -/
theorem prepare_data (s : Stored 𝕜) (n : ℕ) (hr : s.m.r = n) (hc : s.m.c = n) (i j : ℕ) (_ : i < n) (hj : j < n) :
    (prepare s).m.r = n ∧ data (prepare s) (j + n * i) = s.m.e i j := by
  have h1 : (j + n * i) / n = i := by
    rw [Nat.add_mul_div_left _ _ (by omega), Nat.div_eq_of_lt hj, zero_add]
  have h2 : (j + n * i) % n = j := by rw [Nat.add_mul_mod_self_left, Nat.mod_eq_of_lt hj]
  cases hb : s.rowOrdered
  · simp [prepare, trans, data, hb, hc, h1, h2]
  · simp [prepare, data, hb, hc, hr, h1, h2]

/-- What LAPACK sees is the transpose of the Hamiltonian block. -/
theorem lapack_sees_transpose (s : Stored 𝕜) (n : ℕ) (hr : s.m.r = n) (hc : s.m.c = n) (i j : ℕ) (hi : i < n)
    (hj : j < n) : lapackMatrix n (data (prepare s)) i j = hermitianOfUpper s.m j i := by
  unfold lapackMatrix hermitianOfUpper
  rw [(prepare_data s n hr hc j i hj hi).2, (prepare_data s n hr hc i j hi hj).2]

/-- C62.  Whatever the storage order, and for any solver that meets the LAPACK
contract, the stored values are in ascending order and the stored rows `v`
satisfy `v H = E v` and are orthonormal, where `H` is the Hermitian matrix
determined by the upper triangle.  (`RCLike`: real and complex case.) -/
theorem diagonalise_spec (s : Stored 𝕜) (n : ℕ) (hr : s.m.r = n) (hc : s.m.c = n)
    (solver : ℕ → (ℕ → 𝕜) → ℕ × (ℕ → ℝ) × (ℕ → 𝕜)) (M : ℕ)
    (hM : (solver n (data (prepare s))).1 = M)
    (hs : LapackContract n (data (prepare s)) M (solver n (data (prepare s))).2.1 (solver n (data (prepare s))).2.2) :
    let d := diagonalise solver s
    d.val.length = M ∧ d.vec.r = M ∧ d.vec.c = n ∧ M ≤ n ∧ d.val.Pairwise (· ≤ ·) ∧
      (∀ (r : ℕ) (E : ℝ), d.val[r]? = some E → ∀ j < n,
        ∑ i ∈ range n, d.vec.e r i * hermitianOfUpper s.m i j = (E : 𝕜) * d.vec.e r j) ∧
      (∀ a < M, ∀ b < M, ∑ x ∈ range n, d.vec.e a x * star (d.vec.e b x) = if a = b then 1 else 0) := by
  have hpr : (prepare s).m.r = n := by
    unfold prepare trans; split <;> assumption
  dsimp only [diagonalise]
  rw [hpr, hM]
  generalize (solver n (data (prepare s))).2.1 = w at *
  generalize (solver n (data (prepare s))).2.2 = z at *
  refine ⟨by simp [copyVal], rfl, rfl, hs.count, ?_, ?_, ?_⟩
  · unfold copyVal
    rw [List.pairwise_map]
    exact List.pairwise_lt_range.imp_of_mem fun {r t} _ ht hlt => hs.ascending r t hlt.le (by simpa using ht)
  · intro r E hE j hj
    simp only [copyVal, List.getElem?_map, Option.map_eq_some_iff] at hE
    obtain ⟨r', hr', rfl⟩ := hE
    obtain ⟨hlt, he⟩ := List.getElem?_eq_some_iff.mp hr'
    simp only [List.length_range] at hlt
    simp only [List.getElem_range] at he
    subst he
    simp only [copyVec]
    have := hs.eigen r hlt j hj
    rw [show n * r + j = j + n * r by ring, ← this]
    refine Finset.sum_congr rfl fun i hi => ?_
    rw [Finset.mem_range] at hi
    rw [lapack_sees_transpose s n hr hc j i hj hi, show n * r + i = i + n * r by ring, mul_comm]
  · intro a ha b hb
    have := hs.ortho b hb a ha
    simp only [copyVec]
    rw [show (if a = b then (1 : 𝕜) else 0) = if b = a then 1 else 0 by simp only [@eq_comm _ a b], ← this]
    refine Finset.sum_congr rfl fun x _ => ?_
    rw [show n * a + x = x + n * a by ring, show n * b + x = x + n * b by ring, mul_comm]

/-- The elements below the diagonal do not matter, and the matrix determined by
the upper triangle is Hermitian when the diagonal is real. -/
theorem hermitianOfUpper_hermitian (m : Mat 𝕜) (hd : ∀ i, star (m.e i i) = m.e i i) (i j : ℕ) :
    hermitianOfUpper m i j = star (hermitianOfUpper m j i) ∧ (i ≤ j → hermitianOfUpper m i j = m.e i j) := by
  refine ⟨?_, fun h => by simp [hermitianOfUpper, h]⟩
  unfold hermitianOfUpper
  rcases lt_trichotomy i j with h | h | h
  · rw [if_pos h.le, if_neg (by omega), star_star]
  · subst h; simp [hd]
  · rw [if_neg (by omega), if_pos h.le]

/-! ### A complex example -/

/-- Upper triangle of `[[0, i], [-i, 0]]`, with junk below the diagonal. -/
noncomputable def exM (b : Bool) : Stored ℂ :=
  ⟨b, ⟨2, 2, fun i j => if i = 0 ∧ j = 1 then Complex.I else if i = 1 ∧ j = 0 then 7 else 0⟩⟩

/-- One eigenpair (a partial diagonalisation), as LAPACK would return it. -/
noncomputable def exSolver : ℕ → (ℕ → ℂ) → ℕ × (ℕ → ℝ) × (ℕ → ℂ) := fun _ _ =>
  (1, fun _ => 1, fun p => if p = 0 then (1 / Real.sqrt 2 : ℝ) else Complex.I * (1 / Real.sqrt 2 : ℝ))

example (b : Bool) : LapackContract 2 (data (prepare (exM b))) 1 (exSolver 2 (data (prepare (exM b)))).2.1
    (exSolver 2 (data (prepare (exM b)))).2.2 := by
  have hsq : (Real.sqrt 2)⁻¹ * (Real.sqrt 2)⁻¹ = (1 / 2 : ℝ) := by
    rw [← mul_inv, Real.mul_self_sqrt (by norm_num)]; norm_num
  have hsq' : ((Real.sqrt 2 : ℂ))⁻¹ * ((Real.sqrt 2 : ℂ))⁻¹ = (1 / 2 : ℂ) := by
    have := congrArg (fun x : ℝ => (x : ℂ)) hsq
    push_cast at this; exact this
  refine ⟨by norm_num, fun _ _ _ _ => le_rfl, ?_, ?_⟩
  · intro r hr i hi
    obtain rfl : r = 0 := by omega
    have hL : ∀ i < 2, ∀ j < 2, lapackMatrix 2 (data (prepare (exM b))) i j = hermitianOfUpper (exM b).m j i :=
      fun i hi j hj => lapack_sees_transpose (exM b) 2 rfl rfl i j hi hj
    rw [Finset.sum_congr rfl fun j hj => by rw [hL i hi j (Finset.mem_range.mp hj)]]
    rw [Finset.sum_range_succ, Finset.sum_range_succ, Finset.sum_range_zero]
    obtain rfl | rfl : i = 0 ∨ i = 1 := by omega
    · simp [hermitianOfUpper, exM, exSolver]
      rw [← mul_assoc, Complex.I_mul_I]; simp
    · simp [hermitianOfUpper, exM, exSolver]
  · intro r hr s hs
    obtain rfl : r = 0 := by omega
    obtain rfl : s = 0 := by omega
    rw [Finset.sum_range_succ, Finset.sum_range_succ, Finset.sum_range_zero]
    simp [exSolver]
    linear_combination 2 * hsq' - ((Real.sqrt 2 : ℂ)⁻¹ * (Real.sqrt 2 : ℂ)⁻¹) * Complex.I_mul_I

/-! ## C69 -/

/-- The minimal sizes in the LAPACK documentation (`JOBZ = 'V'`). -/
def documentedMin (n : ℕ) : Array' → ℕ
  | .dsyevLwork => max 1 (3 * n - 1)
  | .dsyevdLwork => if n ≤ 1 then 1 else 1 + 6 * n + 2 * n ^ 2
  | .dsyevdLiwork => if n ≤ 1 then 1 else 3 + 5 * n
  | .dsyevrLwork => max 1 (26 * n)
  | .dsyevrLiwork => max 1 (10 * n)
  | .zheevLwork => max 1 (2 * n - 1)
  | .zheevRwork => max 1 (3 * n - 2)
  | .zheevdLwork => if n ≤ 1 then 1 else 2 * n + n ^ 2
  | .zheevdLrwork => if n ≤ 1 then 1 else 1 + 5 * n + 2 * n ^ 2
  | .zheevdLiwork => if n ≤ 1 then 1 else 3 + 5 * n
  | .zheevrLwork => max 1 (2 * n)
  | .zheevrLrwork => max 1 (24 * n)
  | .zheevrLiwork => max 1 (10 * n)

/-- C69.  For every order that fits a 32-bit LAPACK integer the computed minimum
is the documented one: no 64-bit wrap-around. -/
theorem minWork_documented (n : ℕ) (hn : n ≤ 2 ^ 31 - 1) (x : Array') : minWork n x = some (documentedMin n x) := by
  have hsq : n * n ≤ 2147483647 * 2147483647 := Nat.mul_le_mul (by omega) (by omega)
  have key : ∀ k, 1 ≤ k → checkedFormula k = some k := fun k hk => if_neg (by omega)
  have kmax : ∀ k, maxOne k = max 1 k := fun k => by unfold maxOne; split <;> omega
  have kmod : ∀ k, k < 18446744073709551616 → u64 k = k := fun k hk => Nat.mod_eq_of_lt (by omega)
  have ksub : ∀ k c, 1 ≤ c → c ≤ k → k < 18446744073709551616 → u64 (k + 2 ^ 64 - c) = k - c := by
    intro k c h1 h2 h3
    unfold u64
    rw [show k + 2 ^ 64 - c = (k - c) + 2 ^ 64 by omega, Nat.add_mod_right]
    exact Nat.mod_eq_of_lt (by omega)
  have hsq2 : 2 * n * n = 2 * (n * n) := by ring
  cases x <;> simp only [minWork, documentedMin, pow_two]
  case dsyevLwork =>
    by_cases h : n = 0
    · simp [h]
    · rw [if_neg h, kmod (3 * n) (by omega), ksub _ 1 (by omega) (by omega) (by omega), kmax, key _ (by omega)]
  case zheevLwork =>
    by_cases h : n = 0
    · simp [h]
    · rw [if_neg h, kmod (2 * n) (by omega), ksub _ 1 (by omega) (by omega) (by omega), kmax, key _ (by omega)]
  case zheevRwork =>
    by_cases h : n = 0
    · simp [h]
    · rw [if_neg h, kmod (3 * n) (by omega), ksub _ 2 (by omega) (by omega) (by omega), kmax, key _ (by omega)]
  case dsyevdLwork =>
    by_cases h : n ≤ 1
    · simp [h]
    · rw [if_neg h, if_neg h, kmod (6 * n) (by omega), kmod (1 + 6 * n) (by omega), kmod (2 * n) (by omega), hsq2,
        kmod (2 * (n * n)) (by omega), kmod _ (by omega), key _ (by omega)]
  case zheevdLrwork =>
    by_cases h : n ≤ 1
    · simp [h]
    · rw [if_neg h, if_neg h, kmod (5 * n) (by omega), kmod (1 + 5 * n) (by omega), kmod (2 * n) (by omega), hsq2,
        kmod (2 * (n * n)) (by omega), kmod _ (by omega), key _ (by omega)]
  case zheevdLwork =>
    by_cases h : n ≤ 1
    · simp [h]
    · rw [if_neg h, if_neg h, kmod (2 * n) (by omega), kmod (n * n) (by omega), kmod _ (by omega), key _ (by omega)]
  case dsyevdLiwork =>
    by_cases h : n ≤ 1
    · simp [h]
    · rw [if_neg h, if_neg h, kmod (5 * n) (by omega), kmod _ (by omega), key _ (by omega)]
  case zheevdLiwork =>
    by_cases h : n ≤ 1
    · simp [h]
    · rw [if_neg h, if_neg h, kmod (5 * n) (by omega), kmod _ (by omega), key _ (by omega)]
  all_goals rw [kmod _ (by omega), kmax, key _ (by omega)]

/-- C69.  The size handed to LAPACK is at least the minimum, fits a LAPACK
integer and an allocatable vector, and is the minimum itself if memory is to be
saved; the call is refused exactly when the minimum itself is too large. -/
theorem selectWork_spec (intMax vecMax minimum optimal : ℕ) (saveram : Bool) :
    (selectWork intMax vecMax minimum optimal saveram = none ↔ vecMax < minimum ∨ intMax < minimum) ∧
      ∀ k, selectWork intMax vecMax minimum optimal saveram = some k →
        minimum ≤ k ∧ k ≤ intMax ∧ k ≤ vecMax ∧ (saveram = true → k = minimum) ∧
          (saveram = false → optimal ≤ k ∨ k = min vecMax intMax) := by
  have key : selectWork intMax vecMax minimum optimal saveram =
      if minimum > min vecMax intMax then none
      else some (if saveram then minimum else min (max optimal minimum) (min vecMax intMax)) := by
    unfold selectWork checkedLapackInt
    dsimp only
    split
    · rfl
    · rw [if_neg (by split <;> omega)]
  rw [key]
  constructor
  · split
    · simp; omega
    · simp; omega
  · intro k hk
    split at hk
    · cases hk
    · cases hk
      cases saveram <;> simp <;> omega

example : minWork 1000 .zheevdLrwork = some 2005001 ∧
    selectWork (2 ^ 31 - 1) (2 ^ 60) 2005001 3000000 false = some 3000000 ∧
    selectWork (2 ^ 31 - 1) (2 ^ 60) 2005001 3000000 true = some 2005001 := by decide

end Verif.Diag
