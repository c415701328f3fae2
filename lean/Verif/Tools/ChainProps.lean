import Verif.Tools.Chain
import Mathlib.Algebra.Polynomial.Roots
import Mathlib.Algebra.Order.BigOperators.Ring.Finset
import Mathlib.Algebra.BigOperators.Field
import Mathlib.Tactic.Linarith
import Mathlib.Tactic.LinearCombination
import Mathlib.Tactic.Positivity
import Mathlib.Tactic.FieldSimp
import Mathlib.Tactic.Ring
/-!
# C44: the Wilson chain is the tridiagonal form of the discretised bath
# C45: the couplings of the star Hamiltonian are normalised
-/

namespace Verif.Tools

/-! ### Specification -/

/-- Scalar product over the intervals `m ≤ M` and both signs of the energy. -/
noncomputable def dot (M : ℕ) (u v : Wvec) : ℝ := ∑ k ∈ Finset.range (M + 1), (u.p k * v.p k + u.m k * v.m k)

/-- The bath Hamiltonian in the star basis: diagonal, with energies `ep` and `-em`. -/
def Bath.H (b : Bath) (u : Wvec) : Wvec := ⟨fun k => b.ep k * u.p k, fun k => - b.em k * u.m k⟩

/-- The vectors `u 0 … u n` with on-site energies `zeta` and hoppings `xi` are a tridiagonal
form of the bath Hamiltonian, complete up to the last vector. -/
structure Tridiagonal (b : Bath) (n : ℕ) (u : ℕ → Wvec) (xi zeta : ℕ → ℝ) : Prop where
  orthonormal : ∀ i j, i ≤ n → j ≤ n → dot b.M (u i) (u j) = if i = j then 1 else 0
  first : ∀ k, 0 < n → (b.H (u 0)).p k = zeta 0 * (u 0).p k + xi 0 * (u 1).p k ∧
    (b.H (u 0)).m k = zeta 0 * (u 0).m k + xi 0 * (u 1).m k
  next : ∀ i k, i + 1 < n →
    (b.H (u (i + 1))).p k = xi i * (u i).p k + zeta (i + 1) * (u (i + 1)).p k + xi (i + 1) * (u (i + 2)).p k ∧
    (b.H (u (i + 1))).m k = xi i * (u i).m k + zeta (i + 1) * (u (i + 1)).m k + xi (i + 1) * (u (i + 2)).m k
  hopping_pos : ∀ i, i < n → 0 < xi i

/-! ### Scalar products -/

theorem dot_comm (M : ℕ) (u v : Wvec) : dot M u v = dot M v u := by
  unfold dot; refine Finset.sum_congr rfl fun k _ => ?_; ring

theorem dot_self_nonneg (M : ℕ) (u : Wvec) : 0 ≤ dot M u u := by
  unfold dot; exact Finset.sum_nonneg fun k _ => add_nonneg (mul_self_nonneg _) (mul_self_nonneg _)

theorem dot_self_zero (M : ℕ) (u : Wvec) (h : dot M u u = 0) : ∀ k ≤ M, u.p k = 0 ∧ u.m k = 0 := by
  intro k hk
  unfold dot at h
  rw [Finset.sum_eq_zero_iff_of_nonneg (fun k _ => add_nonneg (mul_self_nonneg _) (mul_self_nonneg _))] at h
  have := h k (by simp; omega)
  have h1 := mul_self_nonneg (u.p k)
  have h2 := mul_self_nonneg (u.m k)
  exact ⟨mul_self_eq_zero.mp (by linarith), mul_self_eq_zero.mp (by linarith)⟩

theorem dot_H (b : Bath) (u v : Wvec) : dot b.M (b.H u) v = dot b.M u (b.H v) := by
  unfold dot Bath.H; refine Finset.sum_congr rfl fun k _ => ?_; ring

/-- A linear combination of three vectors. -/
def comb (a : ℝ) (u : Wvec) (c : ℝ) (v : Wvec) (d : ℝ) (w : Wvec) : Wvec :=
  ⟨fun k => a * u.p k + c * v.p k + d * w.p k, fun k => a * u.m k + c * v.m k + d * w.m k⟩

theorem dot_comb (M : ℕ) (a : ℝ) (u : Wvec) (c : ℝ) (v : Wvec) (d : ℝ) (w x : Wvec) :
    dot M (comb a u c v d w) x = a * dot M u x + c * dot M v x + d * dot M w x := by
  unfold dot comb
  simp only [Finset.mul_sum, ← Finset.sum_add_distrib]
  refine Finset.sum_congr rfl fun k _ => ?_; ring

theorem dot_div (M : ℕ) (u v : Wvec) (c : ℝ) : dot M ⟨fun k => u.p k / c, fun k => u.m k / c⟩ v = dot M u v / c := by
  unfold dot
  rw [Finset.sum_div]
  refine Finset.sum_congr rfl fun k _ => ?_; ring

theorem fixNorm_spec (M : ℕ) (u : Wvec) : fixNorm M u = if dot M u u = 0 then .error .divZero else
    .ok ⟨fun k => u.p k / Real.sqrt (dot M u u), fun k => u.m k / Real.sqrt (dot M u u)⟩ := by
  unfold fixNorm
  change (mpSqrt (dot M u u) >>= fun t => u.div t) = _
  unfold mpSqrt
  rw [if_neg (not_lt.mpr (dot_self_nonneg M u))]
  change u.div _ = _
  unfold Wvec.div
  simp only [Real.sqrt_eq_zero (dot_self_nonneg M u)]

theorem fixNorm_unit (M : ℕ) (u : Wvec) (h : dot M u u = 1) : fixNorm M u = .ok u := by
  rw [fixNorm_spec, h, if_neg one_ne_zero]
  simp

theorem fixNorm_norm (M : ℕ) (u : Wvec) (h : dot M u u ≠ 0) :
    dot M ⟨fun k => u.p k / Real.sqrt (dot M u u), fun k => u.m k / Real.sqrt (dot M u u)⟩
      ⟨fun k => u.p k / Real.sqrt (dot M u u), fun k => u.m k / Real.sqrt (dot M u u)⟩ = 1 := by
  have hp : 0 < dot M u u := lt_of_le_of_ne (dot_self_nonneg M u) (Ne.symm h)
  rw [dot_div, dot_comm, dot_div, div_div, Real.mul_self_sqrt hp.le, div_self h]

/-! ### The recursion -/

/-- The invariant: a tridiagonal form, of which the state holds the last two vectors and the
coefficients. -/
structure LInv (b : Bath) (n : ℕ) (s : LState) (u : ℕ → Wvec) (xi zeta : ℕ → ℝ) : Prop where
  tri : Tridiagonal b n u xi zeta
  prev : s.prev = u n
  prev2 : s.prev2 = if n = 0 then ⟨fun _ => 0, fun _ => 0⟩ else u (n - 1)
  xiPrev : s.xiPrev = if n = 0 then 0 else xi (n - 1)
  xi2Prev : s.xi2Prev = s.xiPrev * s.xiPrev
  xis : s.xi = (List.range n).map xi
  zetas : s.zeta = (List.range n).map zeta

/-- The vector left over after one step, before normalisation. -/
noncomputable def residual (b : Bath) (s : LState) : Wvec :=
  comb 1 (b.H s.prev) (- dot b.M s.prev (b.H s.prev)) s.prev (- s.xiPrev) s.prev2

/-- Scalar products of the residual with the vectors found so far. -/
theorem residual_facts {b : Bath} {n : ℕ} {s : LState} {u : ℕ → Wvec} {xi zeta : ℕ → ℝ} (h : LInv b n s u xi zeta) :
    (∀ i ≤ n, dot b.M (residual b s) (u i) = 0) ∧
    dot b.M (residual b s) (residual b s) =
      dot b.M (b.H s.prev) (b.H s.prev) - s.xi2Prev - dot b.M s.prev (b.H s.prev) * dot b.M s.prev (b.H s.prev) := by
  obtain ⟨tri, hp, hp2, hx, hx2, _, _⟩ := h
  have z0 : ∀ v, dot b.M ⟨fun _ => 0, fun _ => 0⟩ v = 0 := fun v => by simp [dot]
  have on := tri.orthonormal
  -- the action of H on an earlier vector
  have hH : ∀ i, i < n → dot b.M (b.H (u n)) (u i) = if i + 1 = n then xi i else 0 := by
    intro i hi
    rw [dot_H]
    cases i with
    | zero =>
      have : b.H (u 0) = comb (zeta 0) (u 0) (xi 0) (u 1) 0 (u 0) := by
        have := fun k => tri.first k hi
        unfold comb
        rcases hh : b.H (u 0) with ⟨P, Q⟩
        rw [hh] at this
        congr 1
        · funext k; have := (this k).1; dsimp only at this ⊢; rw [this]; ring
        · funext k; have := (this k).2; dsimp only at this ⊢; rw [this]; ring
      rw [this, dot_comm, dot_comb, on 0 n (by omega) (le_refl _), on 1 n (by omega) (le_refl _)]
      rw [if_neg (by omega)]
      by_cases h1 : 1 = n
      · simp [← h1]
      · simp [h1]
    | succ i =>
      have : b.H (u (i + 1)) = comb (xi i) (u i) (zeta (i + 1)) (u (i + 1)) (xi (i + 1)) (u (i + 2)) := by
        have := fun k => tri.next i k hi
        unfold comb
        rcases hh : b.H (u (i + 1)) with ⟨P, Q⟩
        rw [hh] at this
        congr 1
        · funext k; exact (this k).1
        · funext k; exact (this k).2
      rw [this, dot_comm, dot_comb, on i n (by omega) (le_refl _), on (i + 1) n (by omega) (le_refl _), on (i + 2) n (by omega) (le_refl _)]
      rw [if_neg (by omega), if_neg (by omega)]
      by_cases h1 : i + 2 = n
      · simp [h1]
      · simp [h1]
  have orth : ∀ i ≤ n, dot b.M (residual b s) (u i) = 0 := by
    intro i hi
    unfold residual
    rw [dot_comb, hp, hp2, hx]
    by_cases h0 : n = 0
    · subst h0
      obtain rfl : i = 0 := by omega
      simp only [if_pos, z0, on 0 0 (le_refl _) (le_refl _), dot_comm b.M (b.H (u 0)) (u 0)]
      ring
    · simp only [if_neg h0]
      rcases Nat.lt_or_eq_of_le hi with hlt | rfl
      · rw [hH i hlt, on n i (le_refl _) hi, on (n - 1) i (by omega) hi, if_neg (show ¬ n = i by omega)]
        by_cases h1 : i + 1 = n
        · subst h1; simp
        · rw [if_neg h1, if_neg (show ¬ n - 1 = i by omega)]; ring
      · rw [on i i (le_refl _) (le_refl _), on (i - 1) i (by omega) (le_refl _), if_neg (show ¬ i - 1 = i by omega), if_pos rfl,
          dot_comm b.M (b.H (u i)) (u i)]
        ring
  refine ⟨orth, ?_⟩
  -- the norm
  have r1 : dot b.M (residual b s) s.prev = 0 := by rw [hp]; exact orth n (le_refl _)
  have r2 : s.xiPrev * dot b.M (residual b s) s.prev2 = 0 := by
    rw [hp2, hx]
    by_cases h0 : n = 0
    · simp [h0]
    · simp only [if_neg h0]; rw [orth (n - 1) (by omega), mul_zero]
  have e1 : dot b.M (residual b s) (residual b s) = dot b.M (residual b s) (b.H s.prev) := by
    have := dot_comb b.M 1 (b.H s.prev) (- dot b.M s.prev (b.H s.prev)) s.prev (- s.xiPrev) s.prev2 (residual b s)
    change dot b.M (residual b s) (residual b s) = _ at this
    rw [this, dot_comm b.M (b.H s.prev), dot_comm b.M s.prev (residual b s), dot_comm b.M s.prev2, r1]
    linear_combination - r2
  have e2 : s.xiPrev * dot b.M s.prev2 (b.H s.prev) = s.xi2Prev := by
    rw [hx2, hp2, hx, hp]
    by_cases h0 : n = 0
    · simp [h0]
    · simp only [if_neg h0]
      rw [dot_comm, hH (n - 1) (by omega), if_pos (by omega)]
  rw [e1]
  unfold residual
  rw [dot_comb]
  linear_combination - e2

/-- What one pass does, in terms of the residual. -/
theorem lanczosStep_eq {b : Bath} {n : ℕ} {s : LState} {u : ℕ → Wvec} {xi zeta : ℕ → ℝ} (h : LInv b n s u xi zeta) :
    lanczosStep b s = if dot b.M (residual b s) (residual b s) = 0 then .error .xi2zero else
      .ok ⟨⟨fun k => (residual b s).p k / Real.sqrt (dot b.M (residual b s) (residual b s)),
        fun k => (residual b s).m k / Real.sqrt (dot b.M (residual b s) (residual b s))⟩, s.prev,
        Real.sqrt (dot b.M (residual b s) (residual b s)), Real.sqrt (dot b.M (residual b s) (residual b s)) * Real.sqrt (dot b.M (residual b s) (residual b s)),
        s.xi ++ [Real.sqrt (dot b.M (residual b s) (residual b s))], s.zeta ++ [dot b.M s.prev (b.H s.prev)]⟩ := by
  obtain ⟨horth, hnorm⟩ := residual_facts h
  have hz : ∑ k ∈ Finset.range (b.M + 1), (s.prev.p k * s.prev.p k * b.ep k - s.prev.m k * s.prev.m k * b.em k) = dot b.M s.prev (b.H s.prev) := by
    unfold dot Bath.H; refine Finset.sum_congr rfl fun k _ => ?_; ring
  have hx : ∑ k ∈ Finset.range (b.M + 1), (s.prev.p k * s.prev.p k * (b.ep k * b.ep k) + s.prev.m k * s.prev.m k * (b.em k * b.em k))
      = dot b.M (b.H s.prev) (b.H s.prev) := by
    unfold dot Bath.H; refine Finset.sum_congr rfl fun k _ => ?_; ring
  have hr : (⟨fun k => (b.ep k - dot b.M s.prev (b.H s.prev)) * s.prev.p k - s.xiPrev * s.prev2.p k,
      fun k => (- b.em k - dot b.M s.prev (b.H s.prev)) * s.prev.m k - s.xiPrev * s.prev2.m k⟩ : Wvec) = residual b s := by
    unfold residual comb
    congr 1
    · funext k; simp only [Bath.H]; ring
    · funext k; simp only [Bath.H]; ring
  unfold lanczosStep
  dsimp only
  rw [hz, hx, hr, ← hnorm]
  by_cases h0 : dot b.M (residual b s) (residual b s) = 0
  · rw [if_pos h0, if_pos h0]
  rw [if_neg h0, if_neg h0]
  have hpos : 0 < dot b.M (residual b s) (residual b s) := lt_of_le_of_ne (dot_self_nonneg _ _) (Ne.symm h0)
  have hs : Real.sqrt (dot b.M (residual b s) (residual b s)) ≠ 0 := (Real.sqrt_pos.mpr hpos).ne'
  have m1 : mpSqrt (dot b.M (residual b s) (residual b s)) = .ok (Real.sqrt (dot b.M (residual b s) (residual b s))) := by
    unfold mpSqrt; rw [if_neg (not_lt.mpr hpos.le)]
  have m2 : Wvec.div (residual b s) (Real.sqrt (dot b.M (residual b s) (residual b s))) = .ok
      ⟨fun k => (residual b s).p k / Real.sqrt (dot b.M (residual b s) (residual b s)),
        fun k => (residual b s).m k / Real.sqrt (dot b.M (residual b s) (residual b s))⟩ := by
    unfold Wvec.div; rw [if_neg hs]
  rw [m1]
  simp only [bind, Except.bind]
  rw [m2]
  simp only [fixNorm_unit _ _ (fixNorm_norm b.M (residual b s) h0), pure, Except.pure]
  have hxi : ∑ k ∈ Finset.range (b.M + 1), ((residual b s).p k / Real.sqrt (dot b.M (residual b s) (residual b s)) * s.prev.p k * b.ep k -
      (residual b s).m k / Real.sqrt (dot b.M (residual b s) (residual b s)) * s.prev.m k * b.em k) =
      Real.sqrt (dot b.M (residual b s) (residual b s)) := by
    have e1 : dot b.M (residual b s) (residual b s) = dot b.M (residual b s) (b.H s.prev) := by
      have r1 : dot b.M (residual b s) s.prev = 0 := by rw [h.prev]; exact horth n (le_refl _)
      have r2 : s.xiPrev * dot b.M (residual b s) s.prev2 = 0 := by
        rw [h.prev2, h.xiPrev]
        by_cases h0 : n = 0
        · simp [h0]
        · simp only [if_neg h0]; rw [horth (n - 1) (by omega), mul_zero]
      have := dot_comb b.M 1 (b.H s.prev) (- dot b.M s.prev (b.H s.prev)) s.prev (- s.xiPrev) s.prev2 (residual b s)
      change dot b.M (residual b s) (residual b s) = _ at this
      rw [this, dot_comm b.M (b.H s.prev), dot_comm b.M s.prev (residual b s), dot_comm b.M s.prev2, r1]
      linear_combination - r2
    have e2 : ∑ k ∈ Finset.range (b.M + 1), ((residual b s).p k / Real.sqrt (dot b.M (residual b s) (residual b s)) * s.prev.p k * b.ep k -
      (residual b s).m k / Real.sqrt (dot b.M (residual b s) (residual b s)) * s.prev.m k * b.em k) =
        dot b.M ⟨fun k => (residual b s).p k / Real.sqrt (dot b.M (residual b s) (residual b s)),
        fun k => (residual b s).m k / Real.sqrt (dot b.M (residual b s) (residual b s))⟩ (b.H s.prev) := by
      unfold dot Bath.H; refine Finset.sum_congr rfl fun k _ => ?_; ring
    rw [e2, dot_div, ← e1]
    exact Real.div_sqrt
  rw [hxi]

/-- The invariant is preserved. -/
theorem lanczosStep_inv {b : Bath} {n : ℕ} {s s' : LState} {u : ℕ → Wvec} {xi zeta : ℕ → ℝ} (h : LInv b n s u xi zeta)
    (hs : lanczosStep b s = .ok s') : ∃ u' xi' zeta', LInv b (n + 1) s' u' xi' zeta' ∧ u' 0 = u 0 := by
  obtain ⟨horth, hnorm⟩ := residual_facts h
  rw [lanczosStep_eq h] at hs
  by_cases h0 : dot b.M (residual b s) (residual b s) = 0
  · rw [if_pos h0] at hs; simp at hs
  rw [if_neg h0] at hs
  simp only [Except.ok.injEq] at hs
  have hpos : 0 < dot b.M (residual b s) (residual b s) := lt_of_le_of_ne (dot_self_nonneg _ _) (Ne.symm h0)
  have hunit := fixNorm_norm b.M (residual b s) h0
  set R := Real.sqrt (dot b.M (residual b s) (residual b s)) with hR
  have hRp : 0 < R := Real.sqrt_pos.mpr hpos
  set w : Wvec := ⟨fun k => (residual b s).p k / R, fun k => (residual b s).m k / R⟩ with hw
  have hwo : ∀ i ≤ n, dot b.M w (u i) = 0 := fun i hi => by rw [hw, dot_div, horth i hi, zero_div]
  refine ⟨fun i => if i = n + 1 then w else u i, fun i => if i = n then R else xi i,
    fun i => if i = n then dot b.M s.prev (b.H s.prev) else zeta i, ⟨⟨?_, ?_, ?_, ?_⟩, ?_, ?_, ?_, ?_, ?_, ?_⟩, by simp⟩
  · intro i j hi hj
    by_cases h1 : i = n + 1 <;> by_cases h2 : j = n + 1
    · simp only [h1, h2, if_pos]; exact hunit
    · simp only [h1, h2, if_pos, if_neg, if_false]; rw [hwo j (by omega), if_neg (by omega)]
    · simp only [h1, h2, if_pos, if_neg, if_false]; rw [dot_comm, hwo i (by omega)]
    · simp only [h1, h2, if_false]; exact h.tri.orthonormal i j (by omega) (by omega)
  · intro k _
    by_cases hn : n = 0
    · subst hn
      have e := h.prev
      have e2 := h.prev2
      have e3 := h.xiPrev
      simp only [if_pos] at e2 e3
      simp only [Nat.zero_add, if_pos]
      rw [if_neg (by omega), hw]
      dsimp only
      rw [mul_div_cancel₀ _ hRp.ne', mul_div_cancel₀ _ hRp.ne']
      unfold residual comb
      rw [e, e3]
      constructor <;> simp
    · have := h.tri.first k (by omega)
      simp only [show ¬ (0 = n + 1) by omega, show ¬ (1 = n + 1) by omega, show ¬ (0 = n) by omega, if_false]
      exact this
  · intro i k hi
    by_cases hn : i + 1 = n
    · subst hn
      have e := h.prev
      have e2 := h.prev2
      have e3 := h.xiPrev
      rw [if_neg (by omega)] at e2 e3
      simp only [Nat.add_sub_cancel] at e2 e3
      simp only [show ¬ (i + 1 = i + 1 + 1) by omega, show ¬ (i = i + 1 + 1) by omega, show ¬ (i = i + 1) by omega, if_false, if_pos]
      rw [hw]
      dsimp only
      rw [mul_div_cancel₀ _ hRp.ne', mul_div_cancel₀ _ hRp.ne']
      unfold residual comb
      rw [e, e2, e3]
      dsimp only
      constructor <;> ring
    · have := h.tri.next i k (by omega)
      simp only [show ¬ (i + 1 = n + 1) by omega, show ¬ (i = n + 1) by omega, show ¬ (i + 2 = n + 1) by omega, show ¬ (i = n) by omega, hn, if_false]
      exact this
  · intro i hi
    by_cases hn : i = n
    · simp only [hn, if_pos]; exact hRp
    · simp only [hn, if_false]; exact h.tri.hopping_pos i (by omega)
  · rw [← hs]; simp
  · rw [← hs]; simp [h.prev]
  · rw [← hs]; simp
  · rw [← hs]
  · rw [← hs]
    simp only [List.range_succ, List.map_append, List.map_cons, List.map_nil, if_pos]
    rw [h.xis]
    congr 1
    apply List.map_congr_left
    intro i hi
    have : i < n := by simpa using hi
    simp [show i ≠ n by omega]
  · rw [← hs]
    simp only [List.range_succ, List.map_append, List.map_cons, List.map_nil, if_pos]
    rw [h.zetas]
    congr 1
    apply List.map_congr_left
    intro i hi
    have : i < n := by simpa using hi
    simp [show i ≠ n by omega]

theorem lanczosInit_inv (b : Bath) (s : LState) (h : lanczosInit b = .ok s) :
    ∃ u, LInv b 0 s u (fun _ => 0) (fun _ => 0) ∧ 0 < dot b.M b.u0 b.u0 ∧
      u 0 = ⟨fun k => b.u0.p k / Real.sqrt (dot b.M b.u0 b.u0), fun k => b.u0.m k / Real.sqrt (dot b.M b.u0 b.u0)⟩ := by
  unfold lanczosInit at h
  rw [fixNorm_spec] at h
  by_cases h0 : dot b.M b.u0 b.u0 = 0
  · rw [if_pos h0] at h; simp [bind, Except.bind] at h
  rw [if_neg h0] at h
  simp only [bind, Except.bind, pure, Except.pure, Except.ok.injEq] at h
  refine ⟨fun _ => s.prev, ⟨⟨?_, ?_, ?_, ?_⟩, rfl, ?_, ?_, ?_, ?_, ?_⟩, lt_of_le_of_ne (dot_self_nonneg _ _) (Ne.symm h0), ?_⟩
  · intro i j hi hj
    rw [if_pos (by omega), ← h]
    exact fixNorm_norm b.M b.u0 h0
  · intro k hk; omega
  · intro i k hi; omega
  · intro i hi; omega
  all_goals (rw [← h]; try simp)

theorem lanczosAt_inv (b : Bath) (n : ℕ) (s : LState) (h : lanczosAt b n = .ok s) :
    ∃ u xi zeta, LInv b n s u xi zeta ∧ 0 < dot b.M b.u0 b.u0 ∧
      u 0 = ⟨fun k => b.u0.p k / Real.sqrt (dot b.M b.u0 b.u0), fun k => b.u0.m k / Real.sqrt (dot b.M b.u0 b.u0)⟩ := by
  induction n generalizing s with
  | zero => obtain ⟨u, h1, h2, h3⟩ := lanczosInit_inv b s h; exact ⟨u, _, _, h1, h2, h3⟩
  | succ n ih =>
    unfold lanczosAt at h
    cases hs : lanczosAt b n with
    | error e => rw [hs] at h; simp [bind, Except.bind] at h
    | ok s0 =>
      rw [hs] at h
      simp only [bind, Except.bind] at h
      obtain ⟨u, xi, zeta, h1, h2, h3⟩ := ih s0 hs
      obtain ⟨u', xi', zeta', h4, h5⟩ := lanczosStep_inv h1 h
      exact ⟨u', xi', zeta', h4, h2, by rw [h5, h3]⟩

/-- **C44.** For every bath and every chain length for which the program produces
coefficients, they are the exact tridiagonal form of the bath Hamiltonian: there are
orthonormal vectors, the first being the normalised coupling vector, that satisfy the
three-term recurrence with exactly the reported on-site energies and hoppings, and all
hoppings are positive. -/
theorem chain_tridiagonal (b : Bath) (n : ℕ) (s : LState) (h : lanczosAt b n = .ok s) :
    ∃ u xi zeta, Tridiagonal b n u xi zeta ∧ s.xi = (List.range n).map xi ∧ s.zeta = (List.range n).map zeta ∧
      0 < dot b.M b.u0 b.u0 ∧
      ∀ k, (u 0).p k * Real.sqrt (dot b.M b.u0 b.u0) = b.u0.p k ∧ (u 0).m k * Real.sqrt (dot b.M b.u0 b.u0) = b.u0.m k := by
  obtain ⟨u, xi, zeta, h1, h2, h3⟩ := lanczosAt_inv b n s h
  have hs : Real.sqrt (dot b.M b.u0 b.u0) ≠ 0 := (Real.sqrt_pos.mpr h2).ne'
  refine ⟨u, xi, zeta, h1.tri, h1.xis, h1.zetas, h2, fun k => ?_⟩
  rw [h3]
  exact ⟨div_mul_cancel₀ _ hs, div_mul_cancel₀ _ hs⟩

/-- **C44.** The squared hopping never becomes negative: with a nonzero coupling vector the
only way to stop is a vanishing hopping, never the square root of a negative number or a
division by zero. -/
theorem chain_stop (b : Bath) (h0 : 0 < dot b.M b.u0 b.u0) (n : ℕ) (e : Stop) (h : lanczosAt b n = .error e) : e = .xi2zero := by
  induction n with
  | zero =>
    unfold lanczosAt lanczosInit at h
    rw [fixNorm_spec, if_neg h0.ne'] at h
    simp [bind, Except.bind, pure, Except.pure] at h
  | succ n ih =>
    unfold lanczosAt at h
    cases hs : lanczosAt b n with
    | error e' =>
      rw [hs] at h
      simp only [bind, Except.bind, Except.error.injEq] at h
      exact ih (by rw [hs, h])
    | ok s0 =>
      rw [hs] at h
      simp only [bind, Except.bind] at h
      obtain ⟨u, xi, zeta, h1, _, _⟩ := lanczosAt_inv b n s0 hs
      rw [lanczosStep_eq h1] at h
      split at h
      · simpa using h.symm
      · simp at h

/-! ### How long the chain can be -/

/-- The distinct bath energies that couple to the impurity. -/
noncomputable def energies (b : Bath) : Finset ℝ := by
  classical exact
  ((Finset.range (b.M + 1)).filter fun k => b.u0.p k ≠ 0).image b.ep ∪
  ((Finset.range (b.M + 1)).filter fun k => b.u0.m k ≠ 0).image fun k => - b.em k

open Polynomial in
/-- Every vector of the chain is a polynomial of the Hamiltonian, of degree equal to its
index, applied to the starting vector. -/
theorem chain_poly {b : Bath} {n : ℕ} {u : ℕ → Wvec} {xi zeta : ℕ → ℝ} (h : Tridiagonal b n u xi zeta)
    {c : ℝ} (hc : 0 < c) (h0 : ∀ k, (u 0).p k * c = b.u0.p k ∧ (u 0).m k * c = b.u0.m k) :
    ∃ P : ℕ → ℝ[X], ∀ i ≤ n, (P i).natDegree = i ∧ P i ≠ 0 ∧ ∀ k, (u i).p k = (P i).eval (b.ep k) * b.u0.p k ∧
      (u i).m k = (P i).eval (- b.em k) * b.u0.m k := by
  have key : ∀ i ≤ n, ∃ Q R : ℝ[X], (Q.natDegree = i ∧ Q ≠ 0 ∧ ∀ k, (u i).p k = Q.eval (b.ep k) * b.u0.p k ∧ (u i).m k = Q.eval (- b.em k) * b.u0.m k) ∧
      (0 < i → R.natDegree ≤ i - 1 ∧ ∀ k, (u (i - 1)).p k = R.eval (b.ep k) * b.u0.p k ∧ (u (i - 1)).m k = R.eval (- b.em k) * b.u0.m k) := by
    intro i
    induction i with
    | zero =>
      intro _
      refine ⟨C (1 / c), 0, ⟨by simp, by simp [hc.ne'], fun k => ?_⟩, fun h => by omega⟩
      simp only [eval_C, ← h0]
      constructor <;> field_simp
    | succ i ih =>
      intro hi
      obtain ⟨Q, R, ⟨hQ1, hQ2, hQ3⟩, hR⟩ := ih (by omega)
      have hx := h.hopping_pos i (by omega)
      have hdeg : ∀ S : ℝ[X], S.natDegree ≤ i → (C (1 / xi i) * (X * Q - S)).natDegree = i + 1 ∧ C (1 / xi i) * (X * Q - S) ≠ 0 := by
        intro S hS
        have h1 : (X * Q).natDegree = i + 1 := by rw [natDegree_X_mul hQ2, hQ1]
        have h2 : (X * Q - S).natDegree = i + 1 := by
          rw [natDegree_sub_eq_left_of_natDegree_lt (by omega), h1]
        have h3 : (C (1 / xi i) * (X * Q - S)).natDegree = i + 1 := by
          rw [natDegree_C_mul (by simp [hx.ne']), h2]
        refine ⟨h3, fun h => ?_⟩
        rw [h] at h3; simp at h3
      cases i with
      | zero =>
        obtain ⟨d1, d2⟩ := hdeg (C (zeta 0) * Q) ((natDegree_C_mul_le _ _).trans (by omega))
        refine ⟨_, Q, ⟨d1, d2, fun k => ?_⟩, fun _ => ⟨by simp [hQ1], hQ3⟩⟩
        obtain ⟨e1, e2⟩ := h.first k (by omega)
        simp only [Bath.H] at e1 e2
        simp only [eval_mul, eval_C, eval_sub, eval_X]
        have q := hQ3 k
        constructor
        · field_simp; linear_combination - e1 + (b.ep k - zeta 0) * q.1
        · field_simp; linear_combination - e2 + (- b.em k - zeta 0) * q.2
      | succ i =>
        obtain ⟨hR1, hR2⟩ := hR (by omega)
        have hS : (C (zeta (i + 1)) * Q + C (xi i) * R).natDegree ≤ i + 1 := by
          refine (natDegree_add_le _ _).trans (max_le ((natDegree_C_mul_le _ _).trans (by omega)) ((natDegree_C_mul_le _ _).trans (by omega)))
        obtain ⟨d1, d2⟩ := hdeg _ hS
        refine ⟨_, Q, ⟨d1, d2, fun k => ?_⟩, fun _ => ⟨by simp [hQ1], hQ3⟩⟩
        obtain ⟨e1, e2⟩ := h.next i k (by omega)
        simp only [Bath.H] at e1 e2
        simp only [eval_mul, eval_C, eval_sub, eval_X, eval_add]
        have q := hQ3 k
        have r := hR2 k
        simp only [Nat.add_sub_cancel] at r
        constructor
        · field_simp; linear_combination - e1 + (b.ep k - zeta (i + 1)) * q.1 - xi i * r.1
        · field_simp; linear_combination - e2 + (- b.em k - zeta (i + 1)) * q.2 - xi i * r.2
  classical
  refine ⟨fun i => if hi : i ≤ n then (key i hi).choose else 0, fun i hi => ?_⟩
  simp only [hi, dif_pos]
  obtain ⟨R, hR, _⟩ := (key i hi).choose_spec
  exact hR

open Polynomial in
/-- A polynomial that kills the starting vector vanishes at all coupled energies. -/
theorem poly_roots (b : Bath) (P : ℝ[X]) (h : ∀ k ≤ b.M, P.eval (b.ep k) * b.u0.p k = 0 ∧ P.eval (- b.em k) * b.u0.m k = 0) :
    ∀ e ∈ energies b, P.eval e = 0 := by
  classical
  intro e he
  unfold energies at he
  rw [Finset.mem_union] at he
  rcases he with he | he
  · obtain ⟨k, hk, rfl⟩ := Finset.mem_image.mp he
    obtain ⟨hk1, hk2⟩ := Finset.mem_filter.mp hk
    exact (mul_eq_zero.mp (h k (by simp at hk1; omega)).1).resolve_right hk2
  · obtain ⟨k, hk, rfl⟩ := Finset.mem_image.mp he
    obtain ⟨hk1, hk2⟩ := Finset.mem_filter.mp hk
    exact (mul_eq_zero.mp (h k (by simp at hk1; omega)).2).resolve_right hk2

open Polynomial in
/-- **C44.** The chain coefficients exist exactly as long as there are distinct coupled bath
energies: `n` passes succeed if and only if there are more than `n` of them. -/
theorem chain_length (b : Bath) (n : ℕ) : (∃ s, lanczosAt b n = .ok s) ↔ n < (energies b).card := by
  classical
  constructor
  · rintro ⟨s, hs⟩
    obtain ⟨u, xi, zeta, tri, _, _, hpos, h0⟩ := chain_tridiagonal b n s hs
    obtain ⟨P, hP⟩ := chain_poly tri (Real.sqrt_pos.mpr hpos) h0
    by_contra hlt
    push Not at hlt
    -- the polynomial with all the coupled energies as roots
    set Q : ℝ[X] := ∏ e ∈ energies b, (X - C e) with hQ
    have hQdeg : Q.natDegree = (energies b).card := natDegree_prod_of_monic _ _ (fun e _ => monic_X_sub_C e) |>.trans (by simp)
    -- every polynomial of degree ≤ i is a combination of P 0 … P i
    have span : ∀ i ≤ n, ∀ R : ℝ[X], R.natDegree ≤ i → ∃ c : ℕ → ℝ, R = ∑ j ∈ Finset.range (i + 1), C (c j) * P j := by
      intro i
      induction i with
      | zero =>
        intro hi R hR
        have hR' := eq_C_of_natDegree_le_zero hR
        have hP0 := eq_C_of_natDegree_eq_zero (hP 0 hi).1
        have hne : (P 0).coeff 0 ≠ 0 := fun h => (hP 0 hi).2.1 (by rw [hP0, h, C_0])
        refine ⟨fun _ => R.coeff 0 / (P 0).coeff 0, ?_⟩
        rw [Finset.sum_range_one]
        conv_lhs => rw [hR']
        conv_rhs => rw [hP0]
        rw [← C_mul, coeff_C_zero, div_mul_cancel₀ _ hne]
      | succ i ih =>
        intro hi R hR
        have hdeg := (hP (i + 1) hi).1
        have hlead : (P (i + 1)).coeff (i + 1) ≠ 0 := by
          have := leadingCoeff_ne_zero.mpr (hP (i + 1) hi).2.1
          rwa [leadingCoeff, hdeg] at this
        set a := R.coeff (i + 1) / (P (i + 1)).coeff (i + 1) with ha
        have hR' : (R - C a * P (i + 1)).natDegree ≤ i := by
          rw [natDegree_le_iff_coeff_eq_zero]
          intro N hN
          rcases Nat.lt_or_eq_of_le (Nat.succ_le_of_lt hN) with h1 | h1
          · rw [coeff_sub, coeff_C_mul, coeff_eq_zero_of_natDegree_lt (by omega), coeff_eq_zero_of_natDegree_lt (p := P (i + 1)) (by omega)]
            ring
          · have : N = i + 1 := by omega
            rw [this, coeff_sub, coeff_C_mul, ha, div_mul_cancel₀ _ hlead, sub_self]
        obtain ⟨c, hc⟩ := ih (by omega) _ hR'
        refine ⟨fun j => if j = i + 1 then a else c j, ?_⟩
        rw [Finset.sum_range_succ]
        beta_reduce
        rw [if_pos rfl]
        rw [Finset.sum_congr rfl (g := fun j => C (c j) * P j) (fun j hj => by
          rw [if_neg (by simp at hj; omega)]), ← hc]
        ring
    -- shift Q to degree n and use that its component on u n is nonzero
    set Q' : ℝ[X] := X ^ (n - (energies b).card) * Q with hQ'
    have hQm : Q.Monic := monic_prod_of_monic _ _ (fun e _ => monic_X_sub_C e)
    have hQ'm : Q'.Monic := (monic_X_pow _).mul hQm
    have hQ'deg : Q'.natDegree = n := by
      rw [hQ', (monic_X_pow _).natDegree_mul hQm, natDegree_X_pow, hQdeg]; omega
    obtain ⟨c, hc⟩ := span n (le_refl _) Q' hQ'deg.le
    have kill : ∀ k ≤ b.M, Q'.eval (b.ep k) * b.u0.p k = 0 ∧ Q'.eval (- b.em k) * b.u0.m k = 0 := by
      intro k hk
      have root : ∀ e ∈ energies b, Q'.eval e = 0 := by
        intro e he
        rw [hQ', eval_mul, hQ, eval_prod, Finset.prod_eq_zero he (by simp), mul_zero]
      constructor
      · by_cases hz : b.u0.p k = 0
        · rw [hz, mul_zero]
        · rw [root _ (by
            unfold energies
            exact Finset.mem_union_left _ (Finset.mem_image_of_mem _ (Finset.mem_filter.mpr ⟨by simp; omega, hz⟩))), zero_mul]
      · by_cases hz : b.u0.m k = 0
        · rw [hz, mul_zero]
        · rw [root _ (by
            unfold energies
            exact Finset.mem_union_right _ (Finset.mem_image.mpr ⟨k, Finset.mem_filter.mpr ⟨by simp; omega, hz⟩, rfl⟩)), zero_mul]
    have hcn : c n = 0 := by
      have e1 : dot b.M ⟨fun k => Q'.eval (b.ep k) * b.u0.p k, fun k => Q'.eval (- b.em k) * b.u0.m k⟩ (u n) = 0 := by
        unfold dot
        refine Finset.sum_eq_zero fun k hk => ?_
        obtain ⟨k1, k2⟩ := kill k (by simp at hk; omega)
        simp only [k1, k2, zero_mul, add_zero]
      have e2 : dot b.M ⟨fun k => Q'.eval (b.ep k) * b.u0.p k, fun k => Q'.eval (- b.em k) * b.u0.m k⟩ (u n) =
          ∑ j ∈ Finset.range (n + 1), c j * dot b.M (u j) (u n) := by
        unfold dot
        simp only [Finset.mul_sum]
        rw [Finset.sum_comm]
        refine Finset.sum_congr rfl fun k _ => ?_
        rw [hc]
        simp only [eval_finset_sum, eval_mul, eval_C, Finset.sum_mul, ← Finset.sum_add_distrib]
        refine Finset.sum_congr rfl fun j hj => ?_
        obtain ⟨q1, q2⟩ := (hP j (by simp at hj; omega)).2.2 k
        rw [q1, q2]; ring
      rw [e2, Finset.sum_eq_single n (fun j hj hjn => by
        rw [tri.orthonormal j n (by simp at hj; omega) (le_refl _), if_neg hjn, mul_zero]) (fun h => by simp at h),
        tri.orthonormal n n (le_refl _) (le_refl _), if_pos rfl, mul_one] at e1
      exact e1
    have : Q'.coeff n = 0 := by
      rw [hc, finset_sum_coeff]
      refine Finset.sum_eq_zero fun j hj => ?_
      rw [coeff_C_mul]
      rcases Nat.lt_or_eq_of_le (show j ≤ n by simp at hj; omega) with h1 | rfl
      · rw [coeff_eq_zero_of_natDegree_lt (by rw [(hP j h1.le).1]; exact h1), mul_zero]
      · rw [hcn, zero_mul]
    have h1 := hQ'm.coeff_natDegree
    rw [hQ'deg, this] at h1
    exact zero_ne_one h1
  · induction n with
    | zero =>
      intro hpos
      obtain ⟨e, he⟩ := Finset.card_pos.mp hpos
      have : dot b.M b.u0 b.u0 ≠ 0 := by
        intro hz
        have hz := dot_self_zero _ _ hz
        unfold energies at he
        rw [Finset.mem_union] at he
        rcases he with he | he
        · obtain ⟨k, hk, rfl⟩ := Finset.mem_image.mp he
          obtain ⟨hk1, hk2⟩ := Finset.mem_filter.mp hk
          exact hk2 (hz k (by simp at hk1; omega)).1
        · obtain ⟨k, hk, rfl⟩ := Finset.mem_image.mp he
          obtain ⟨hk1, hk2⟩ := Finset.mem_filter.mp hk
          exact hk2 (hz k (by simp at hk1; omega)).2
      unfold lanczosAt lanczosInit
      rw [fixNorm_spec, if_neg this]
      exact ⟨_, rfl⟩
    | succ n ih =>
      intro hlt
      obtain ⟨s, hs⟩ := ih (by omega)
      obtain ⟨u, xi, zeta, hinv, hpos, hu0⟩ := lanczosAt_inv b n s hs
      have hsq := Real.sqrt_pos.mpr hpos
      obtain ⟨P, hP⟩ := chain_poly hinv.tri hsq (fun k => by
        rw [hu0]; exact ⟨div_mul_cancel₀ _ hsq.ne', div_mul_cancel₀ _ hsq.ne'⟩)
      unfold lanczosAt
      rw [hs]
      simp only [bind, Except.bind]
      rw [lanczosStep_eq hinv]
      by_cases hz : dot b.M (residual b s) (residual b s) = 0
      · exfalso
        have hz := dot_self_zero _ _ hz
        -- the residual as a polynomial
        set z := dot b.M s.prev (b.H s.prev)
        obtain ⟨S, hS1, hS2⟩ : ∃ S : ℝ[X], S.natDegree ≤ n ∧ ∀ k, (s.xiPrev * s.prev2.p k = S.eval (b.ep k) * b.u0.p k ∧
            s.xiPrev * s.prev2.m k = S.eval (- b.em k) * b.u0.m k) := by
          by_cases hn : n = 0
          · refine ⟨0, by simp, fun k => ?_⟩
            rw [hinv.xiPrev, if_pos hn]; simp
          · refine ⟨C (xi (n - 1)) * P (n - 1), (natDegree_C_mul_le _ _).trans (by rw [(hP (n - 1) (by omega)).1]; omega), fun k => ?_⟩
            obtain ⟨q1, q2⟩ := (hP (n - 1) (by omega)).2.2 k
            rw [hinv.xiPrev, if_neg hn, hinv.prev2, if_neg hn, q1, q2]
            simp only [eval_mul, eval_C]
            constructor <;> ring
        obtain ⟨d1, d2, d3⟩ := hP n (le_refl _)
        set R : ℝ[X] := X * P n - (C z * P n + S) with hR
        have hRdeg : R.natDegree = n + 1 := by
          have h1 : (X * P n).natDegree = n + 1 := by rw [natDegree_X_mul d2, d1]
          have h2 : (C z * P n + S).natDegree ≤ n := (natDegree_add_le _ _).trans (max_le ((natDegree_C_mul_le _ _).trans d1.le) hS1)
          rw [hR, natDegree_sub_eq_left_of_natDegree_lt (by omega), h1]
        have hR0 : R ≠ 0 := fun h => by rw [h] at hRdeg; simp at hRdeg
        have hroots := poly_roots b R (fun k hk => by
          obtain ⟨z1, z2⟩ := hz k hk
          obtain ⟨q1, q2⟩ := d3 k
          obtain ⟨r1, r2⟩ := hS2 k
          unfold residual comb at z1 z2
          simp only [Bath.H, hinv.prev] at z1 z2
          rw [hR]
          simp only [eval_sub, eval_mul, eval_X, eval_add, eval_C]
          have hz' : z = dot b.M (u n) ⟨fun k => b.ep k * (u n).p k, fun k => - b.em k * (u n).m k⟩ := by simp only [z, hinv.prev, Bath.H]
          rw [← hz'] at z1 z2
          constructor
          · linear_combination z1 + r1 - (b.ep k - z) * q1
          · linear_combination z2 + r2 - (- b.em k - z) * q2)
        have : (energies b).card ≤ R.natDegree := by
          refine (Finset.card_le_card (t := R.roots.toFinset) fun e he => ?_).trans ((Multiset.toFinset_card_le _).trans (card_roots' R))
          rw [Multiset.mem_toFinset, mem_roots hR0]
          exact hroots e he
        omega
      · rw [if_neg hz]; exact ⟨_, rfl⟩

/-- The hypotheses are met by a bath with two coupled energies: two coefficients pairs are
not available, one is. -/
noncomputable def exBath : Bath := ⟨0, fun _ => 1, fun _ => 1, ⟨fun _ => 1, fun _ => 1⟩⟩

example : (∃ s, lanczosAt exBath 1 = .ok s) ∧ ¬ ∃ s, lanczosAt exBath 2 = .ok s := by
  classical
  have : energies exBath = {1, -1} := by
    unfold energies exBath
    ext e
    simp
  have hc : (energies exBath).card = 2 := by
    rw [this]
    exact Finset.card_pair (by norm_num)
  constructor
  · rw [chain_length, hc]; omega
  · rw [chain_length, hc]; omega

/-! ### The star Hamiltonian -/

theorem tele (F : ℕ → ℝ) (n : ℕ) : ∑ m ∈ Finset.range n, (F m - F (m + 1)) = F 0 - F n := by
  induction n with
  | zero => simp
  | succ n ih => rw [Finset.sum_range_succ, ih]; ring

/-- **C45.** The interval weights telescope: they add up to the total hybridisation weight
used for the normalisation, for every hybridisation, mesh and number of intervals. -/
theorem star_weights (Gp Gn ep en : ℝ → ℝ) (z : ℝ) (M : ℕ) :
    ∑ m ∈ Finset.range (M + 1), (((starTables Gp Gn ep en z M).df m).1 + ((starTables Gp Gn ep en z M).df m).2) =
      (starTables Gp Gn ep en z M).theta := by
  have h1 := tele (fun m : ℕ => Gp (ep (z + m + 1))) (M + 1)
  have h2 := tele (fun m : ℕ => Gn (en (z + m + 1))) (M + 1)
  rw [Finset.sum_add_distrib]
  unfold starTables
  dsimp only
  have c1 : ∀ m : ℕ, z + ((m + 1 : ℕ) : ℝ) + 1 = z + m + 2 := fun m => by push_cast; ring
  simp only [c1] at h1 h2
  rw [h1, h2]
  simp

theorem dSqrt_some {x : ℝ} (h : 0 ≤ x) : dSqrt x = some (Real.sqrt x) := by
  unfold dSqrt; rw [if_neg (not_lt.mpr h)]

theorem checksum_eq (f g : ℕ → ℝ) (n : ℕ) : (List.range n).foldl
    (fun (acc : Option ℝ) m => do let c ← acc; let a ← (some (f m) : Option ℝ); let b ← (some (g m) : Option ℝ); pure (c + (a * a + b * b))) (some 0)
    = some (∑ m ∈ Finset.range n, (f m * f m + g m * g m)) := by
  induction n with
  | zero => simp
  | succ n ih => rw [List.range_succ, List.foldl_append, ih]; simp [Finset.sum_range_succ]

/-- **C45.** When the total weight is positive and no interval weight is negative, the
squared couplings add up to one exactly, the checksum test does not reject them, and the
final renormalisation changes nothing. -/
theorem star_normalised (Gp Gn ep en : ℝ → ℝ) (z : ℝ) (M : ℕ) (hpos : 0 < (starTables Gp Gn ep en z M).theta)
    (hdf : ∀ m ≤ M, 0 ≤ ((starTables Gp Gn ep en z M).df m).1 ∧ 0 ≤ ((starTables Gp Gn ep en z M).df m).2) :
    ∃ up un : ℕ → ℝ, (∀ m ≤ M, (starTables Gp Gn ep en z M).du m = (some (up m), some (un m)) ∧ 0 ≤ up m ∧ 0 ≤ un m ∧
        up m * up m * (starTables Gp Gn ep en z M).theta = ((starTables Gp Gn ep en z M).df m).1 ∧
        un m * un m * (starTables Gp Gn ep en z M).theta = ((starTables Gp Gn ep en z M).df m).2) ∧
      ∑ m ∈ Finset.range (M + 1), (up m * up m + un m * un m) = 1 ∧
      ¬ (starTables Gp Gn ep en z M).rejected := by
  set S := starTables Gp Gn ep en z M with hS
  have hst : Real.sqrt S.theta ≠ 0 := (Real.sqrt_pos.mpr hpos).ne'
  set up := fun m => Real.sqrt (S.df m).1 / Real.sqrt S.theta with hup
  set un := fun m => Real.sqrt (S.df m).2 / Real.sqrt S.theta with hun
  have hdu : ∀ m, S.du0 m = (dDiv (dSqrt (S.df m).1) (dSqrt S.theta), dDiv (dSqrt (S.df m).2) (dSqrt S.theta)) := fun m => rfl
  have hdu0 : ∀ m ≤ M, S.du0 m = (some (up m), some (un m)) := by
    intro m hm
    rw [hdu, dSqrt_some (hdf m hm).1, dSqrt_some (hdf m hm).2, dSqrt_some hpos.le]
    simp [dDiv, hst, hup, hun]
  have sq : ∀ x, 0 ≤ x → Real.sqrt x / Real.sqrt S.theta * (Real.sqrt x / Real.sqrt S.theta) * S.theta = x := by
    intro x hx
    rw [div_mul_div_comm, Real.mul_self_sqrt hx, Real.mul_self_sqrt hpos.le, div_mul_cancel₀ _ hpos.ne']
  have hsum : ∑ m ∈ Finset.range (M + 1), (up m * up m + un m * un m) = 1 := by
    have hw := star_weights Gp Gn ep en z M
    rw [← hS] at hw
    have : (∑ m ∈ Finset.range (M + 1), (up m * up m + un m * un m)) * S.theta = S.theta := by
      rw [Finset.sum_mul]
      conv_rhs => rw [← hw]
      refine Finset.sum_congr rfl fun m hm => ?_
      have hm' : m ≤ M := by simp at hm; omega
      rw [add_mul, hup, hun]
      dsimp only
      rw [sq _ (hdf m hm').1, sq _ (hdf m hm').2]
    exact mul_right_cancel₀ hpos.ne' (by rw [this, one_mul])
  have hcs : S.checksum = some 1 := by
    have : S.checksum = (List.range (M + 1)).foldl
      (fun (acc : Option ℝ) m => do let c ← acc; let a ← (S.du0 m).1; let b ← (S.du0 m).2; pure (c + (a * a + b * b))) (some 0) := rfl
    rw [this, ← hsum, ← checksum_eq]
    refine List.foldl_ext _ _ _ fun acc m hm => ?_
    rw [hdu0 m (by simp at hm; omega)]
  have hdue : ∀ m, S.du m = (dDiv (S.du0 m).1 (S.checksum.bind dSqrt), dDiv (S.du0 m).2 (S.checksum.bind dSqrt)) := fun m => rfl
  refine ⟨up, un, fun m hm => ⟨?_, by positivity, by positivity, sq _ (hdf m hm).1, sq _ (hdf m hm).2⟩, hsum, ?_⟩
  · rw [hdue, hcs, hdu0 m hm]
    simp [dSqrt_some, dDiv]
  · intro hr
    obtain ⟨c, hc1, hc2⟩ : ∃ c, S.checksum = some c ∧ |1 - c| > 1 / 10 ^ 10 := hr
    rw [hcs] at hc1
    obtain rfl := Option.some.inj hc1
    norm_num at hc2

/-- The mesh without adaptation never increases. -/
theorem epsMesh_antitone (Lambda : ℝ) (hL : 1 < Lambda) {x y : ℝ} (h : x ≤ y) : epsMesh Lambda (fun _ => 1) y ≤ epsMesh Lambda (fun _ => 1) x := by
  unfold epsMesh
  by_cases hx : x ≤ 2
  · rw [if_pos hx]
    by_cases hy : y ≤ 2
    · rw [if_pos hy]
    · rw [if_neg hy, one_mul]
      exact Real.rpow_le_one_of_one_le_of_nonpos hL.le (by linarith)
  · rw [if_neg hx, if_neg (by intro hy; exact hx (h.trans hy)), one_mul, one_mul]
    exact Real.rpow_le_rpow_of_exponent_le hL.le (by linarith)

/-- **C45.** With non-decreasing cumulative hybridisations (non-negative hybridisation
functions) and the standard mesh, the interval weights are never negative, so only the
total has to be positive. -/
theorem star_normalised_standard (Gp Gn : ℝ → ℝ) (hGp : Monotone Gp) (hGn : Monotone Gn) (Lambda : ℝ) (hL : 1 < Lambda) (z : ℝ) (M : ℕ) :
    ∀ m, 0 ≤ ((starTables Gp Gn (epsMesh Lambda fun _ => 1) (epsMesh Lambda fun _ => 1) z M).df m).1 ∧
      0 ≤ ((starTables Gp Gn (epsMesh Lambda fun _ => 1) (epsMesh Lambda fun _ => 1) z M).df m).2 := by
  intro m
  unfold starTables
  dsimp only
  have := epsMesh_antitone Lambda hL (show z + (m : ℝ) + 1 ≤ z + m + 2 by linarith)
  exact ⟨sub_nonneg.mpr (hGp this), sub_nonneg.mpr (hGn this)⟩

theorem foldl_none_of_mem (f : ℕ → Option ℝ × Option ℝ) (l : List ℕ) (acc : Option ℝ)
    (h : acc = none ∨ ∃ m ∈ l, (f m).1 = none) : l.foldl
    (fun (acc : Option ℝ) m => do let c ← acc; let a ← (f m).1; let b ← (f m).2; pure (c + (a * a + b * b))) acc = none := by
  induction l generalizing acc with
  | nil => rcases h with h | ⟨m, hm, _⟩; exact h; simp at hm
  | cons a l ih =>
    rw [List.foldl_cons]
    apply ih
    rcases h with h | ⟨m, hm, hn⟩
    · left; rw [h]; rfl
    · rcases List.mem_cons.mp hm with rfl | hm
      · left; rw [hn]; cases acc <;> rfl
      · exact Or.inr ⟨m, hm, hn⟩

/-- Finding: a negative interval weight makes the checksum NaN, which the test does not
reject; the couplings written out are then NaN. -/
theorem star_nan_not_rejected (Gp Gn ep en : ℝ → ℝ) (z : ℝ) (M m : ℕ) (hm : m ≤ M)
    (hneg : ((starTables Gp Gn ep en z M).df m).1 < 0) :
    ¬ (starTables Gp Gn ep en z M).rejected ∧ ∀ k, (starTables Gp Gn ep en z M).du k = (none, none) := by
  set S := starTables Gp Gn ep en z M with hS
  have hdu : (S.du0 m).1 = none := by
    have : (S.du0 m).1 = dDiv (dSqrt (S.df m).1) (dSqrt S.theta) := rfl
    rw [this]
    unfold dSqrt
    rw [if_pos hneg]; rfl
  have hcs : S.checksum = none := by
    have : S.checksum = (List.range (M + 1)).foldl
      (fun (acc : Option ℝ) m => do let c ← acc; let a ← (S.du0 m).1; let b ← (S.du0 m).2; pure (c + (a * a + b * b))) (some 0) := rfl
    rw [this]
    exact foldl_none_of_mem _ _ _ (Or.inr ⟨m, by simp; omega, hdu⟩)
  constructor
  · intro hr
    obtain ⟨c, hc, _⟩ : ∃ c, S.checksum = some c ∧ |1 - c| > 1 / 10 ^ 10 := hr
    rw [hcs] at hc; simp at hc
  · intro k
    have : S.du k = (dDiv (S.du0 k).1 (S.checksum.bind dSqrt), dDiv (S.du0 k).2 (S.checksum.bind dSqrt)) := rfl
    rw [this, hcs]
    unfold dDiv
    cases (S.du0 k).1 <;> cases (S.du0 k).2 <;> rfl

/-- A flat band, `Λ = 2`, `z = 1`: the hypotheses of `star_normalised` hold for any number
of intervals. -/
example (M : ℕ) : 0 < (starTables (fun x => x / 2) (fun x => x / 2) (epsMesh 2 fun _ => 1) (epsMesh 2 fun _ => 1) 1 M).theta := by
  unfold starTables epsMesh
  dsimp only
  rw [if_pos (by norm_num), if_neg (by push Not; have : (0 : ℝ) ≤ M := Nat.cast_nonneg M; linarith)]
  have : (2 : ℝ) ^ (2 - (1 + (M : ℝ) + 2)) < 1 := by
    apply Real.rpow_lt_one_of_one_lt_of_neg (by norm_num)
    have : (0 : ℝ) ≤ M := Nat.cast_nonneg M
    linarith
  linarith

end Verif.Tools
