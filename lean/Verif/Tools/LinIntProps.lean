import Verif.Tools.LinInt
import Mathlib.Algebra.Order.BigOperators.Group.List
import Mathlib.Analysis.SpecialFunctions.Integrals.Basic
import Mathlib.MeasureTheory.Integral.IntervalIntegral.Basic
import Mathlib.Tactic.Linarith
import Mathlib.Tactic.FieldSimp
import Mathlib.Tactic.Ring
/-!
# C43: interpolation does not depend on the history of queries
-/

namespace Verif.Tools
variable {K : Type} [Field K] [LinearOrder K] [IsStrictOrderedRing K]

/-- A table that can be interpolated: at least two points, strictly increasing. -/
structure Good (t : Tab K) : Prop where
  len : 2 ≤ t.length
  inc : ∀ i, i + 1 < t.length → t.x i < t.x (i + 1)

/-- `v` is the value at `x` of the piecewise-linear interpolant, continued by constants. -/
def IsInterp (t : Tab K) (x v : K) : Prop :=
  (x ≤ t.x 0 ∧ v = t.f 0) ∨ (t.x (t.length - 1) ≤ x ∧ v = t.f (t.length - 1)) ∨
  ∃ i, i + 1 < t.length ∧ t.x i ≤ x ∧ x ≤ t.x (i + 1) ∧
    v * (t.x (i + 1) - t.x i) = t.f i * (t.x (i + 1) - x) + t.f (i + 1) * (x - t.x i)

theorem Good.mono {t : Tab K} (h : Good t) {i j : ℕ} (hij : i ≤ j) (hj : j < t.length) : t.x i ≤ t.x j := by
  induction j, hij using Nat.le_induction with
  | base => exact le_refl _
  | succ j hij ih => exact (ih (by omega)).trans (h.inc j hj).le

theorem Good.strict {t : Tab K} (h : Good t) {i j : ℕ} (hij : i < j) (hj : j < t.length) : t.x i < t.x j :=
  lt_of_lt_of_le (h.inc i (by omega)) (h.mono hij hj)

/-- The interpolant is single valued. -/
theorem IsInterp.unique {t : Tab K} (h : Good t) {x v w : K} (hv : IsInterp t x v) (hw : IsInterp t x w) : v = w := by
  have hl := h.len
  -- every description reduces to one on a piece, at its ends
  have node : ∀ i, i + 1 < t.length → ∀ v, v * (t.x (i + 1) - t.x i) = t.f i * (t.x (i + 1) - x) + t.f (i + 1) * (x - t.x i) →
      (x = t.x i → v = t.f i) ∧ (x = t.x (i + 1) → v = t.f (i + 1)) := by
    intro i hi v hv
    have hp : t.x (i + 1) - t.x i ≠ 0 := sub_ne_zero.mpr (h.inc i hi).ne'
    constructor
    · intro hx; rw [hx, sub_self, mul_zero, add_zero] at hv; exact mul_right_cancel₀ hp hv
    · intro hx; rw [hx, sub_self, mul_zero, zero_add] at hv; exact mul_right_cancel₀ hp hv
  -- the value at a node
  have atNode : ∀ v, IsInterp t x v → ∀ k, k < t.length → x = t.x k → v = t.f k := by
    intro v hv k hk hx
    rcases hv with ⟨h1, rfl⟩ | ⟨h1, rfl⟩ | ⟨i, hi, h1, h2, h3⟩
    · have : k = 0 := by
        by_contra hc
        have := h.strict (Nat.pos_of_ne_zero hc) hk
        rw [hx] at h1; exact absurd this (not_lt.mpr h1)
      rw [this]
    · have : k = t.length - 1 := by
        by_contra hc
        have := h.strict (show k < t.length - 1 by omega) (by omega)
        rw [hx] at h1; exact absurd this (not_lt.mpr h1)
      rw [this]
    · have hki : i ≤ k := by
        by_contra hc
        have := h.strict (show k < i by omega) (by omega)
        rw [hx] at h1; exact absurd this (not_lt.mpr h1)
      have hki2 : k ≤ i + 1 := by
        by_contra hc
        have := h.strict (show i + 1 < k by omega) hk
        rw [hx] at h2; exact absurd this (not_lt.mpr h2)
      obtain rfl | rfl : k = i ∨ k = i + 1 := by omega
      · exact (node _ hi v h3).1 hx
      · exact (node _ hi v h3).2 hx
  by_cases hn : ∃ k, k < t.length ∧ x = t.x k
  · obtain ⟨k, hk, hx⟩ := hn
    rw [atNode v hv k hk hx, atNode w hw k hk hx]
  push Not at hn
  rcases hv with ⟨h1, rfl⟩ | ⟨h1, rfl⟩ | ⟨i, hi, h1, h2, h3⟩
  · rcases hw with ⟨g1, rfl⟩ | ⟨g1, rfl⟩ | ⟨j, hj, g1, g2, g3⟩
    · rfl
    · have := h.strict (show 0 < t.length - 1 by omega) (by omega)
      exact absurd (g1.trans h1) (not_le.mpr this)
    · have := h.mono (Nat.zero_le j) (by omega)
      exact absurd (le_antisymm h1 (this.trans g1)) (hn 0 (by omega))
  · rcases hw with ⟨g1, rfl⟩ | ⟨g1, rfl⟩ | ⟨j, hj, g1, g2, g3⟩
    · have := h.strict (show 0 < t.length - 1 by omega) (by omega)
      exact absurd (h1.trans g1) (not_le.mpr this)
    · rfl
    · have := h.mono (show j + 1 ≤ t.length - 1 by omega) (by omega)
      exact absurd (le_antisymm (g2.trans this) h1) (hn _ (by omega))
  · rcases hw with ⟨g1, rfl⟩ | ⟨g1, rfl⟩ | ⟨j, hj, g1, g2, g3⟩
    · have := h.mono (Nat.zero_le i) (by omega)
      exact absurd (le_antisymm g1 (this.trans h1)) (hn 0 (by omega))
    · have := h.mono (show i + 1 ≤ t.length - 1 by omega) (by omega)
      exact absurd (le_antisymm (h2.trans this) g1) (hn _ (by omega))
    · have : i = j := by
        by_contra hc
        rcases Nat.lt_or_gt_of_ne hc with hlt | hlt
        · have := h.mono (show i + 1 ≤ j by omega) (by omega)
          exact hn (i + 1) hi (le_antisymm h2 (this.trans g1))
        · have := h.mono (show j + 1 ≤ i by omega) (by omega)
          exact hn (j + 1) hj (le_antisymm g2 (this.trans h1))
      subst this
      have hp : t.x (i + 1) - t.x i ≠ 0 := sub_ne_zero.mpr (h.inc i hi).ne'
      exact mul_right_cancel₀ hp (h3.trans g3.symm)

/-- The invariant of the cached interval. -/
def Inv (t : Tab K) (s : LinState K) : Prop :=
  ∀ i, s.index = some i → i + 1 < t.length ∧ s.x0 = t.x i ∧ s.x1 = t.x (i + 1) ∧ s.f0 = t.f i ∧ s.f1 = t.f (i + 1) ∧
    s.deriv = (t.f (i + 1) - t.f i) / (t.x (i + 1) - t.x i)

theorem linNew_inv (t : Tab K) (s : LinState K) (h : linNew t = some s) : Inv t s := by
  unfold linNew at h
  split at h
  · simp at h
  · obtain rfl := Option.some.inj h
    intro i hi; simp at hi

theorem linNew_ok (t : Tab K) : (linNew t).isSome ↔ 2 ≤ t.length := by
  unfold linNew
  by_cases h : t.length < 2
  · simp [h]
  · simp [h]; omega

/-- A loop that visits an interval containing `x` ends in such an interval. -/
theorem scan_finds (t : Tab K) (x : K) (is : List ℕ) (s : LinState K) (h : ∃ i ∈ is, t.x i ≤ x ∧ x ≤ t.x (i + 1)) :
    ∃ i ∈ is, t.x i ≤ x ∧ x ≤ t.x (i + 1) ∧ (scan t x is s).index = some i ∧ (scan t x is s).x0 = t.x i ∧
      (scan t x is s).x1 = t.x (i + 1) ∧ (scan t x is s).flag = s.flag := by
  induction is generalizing s with
  | nil => obtain ⟨i, hi, _⟩ := h; simp at hi
  | cons i is ih =>
    by_cases hc : t.x i ≤ x ∧ x ≤ t.x (i + 1)
    · refine ⟨i, by simp, hc.1, hc.2, ?_⟩
      simp [scan, hc]
    · have h' : ∃ j ∈ is, t.x j ≤ x ∧ x ≤ t.x (j + 1) := by
        obtain ⟨j, hj, h1, h2⟩ := h
        rcases List.mem_cons.mp hj with rfl | hj
        · exact absurd ⟨h1, h2⟩ hc
        · exact ⟨j, hj, h1, h2⟩
      obtain ⟨j, hj, h1, h2, h3, h4, h5, h6⟩ := ih { s with x0 := t.x i, x1 := t.x (i + 1) } h'
      refine ⟨j, List.mem_cons_of_mem _ hj, h1, h2, ?_⟩
      unfold scan
      dsimp only
      rw [if_neg hc]
      exact ⟨h3, h4, h5, h6⟩

/-- An interval between two nodes that enclose `x`. -/
theorem exists_piece {t : Tab K} (x : K) (a b : ℕ) (hab : a < b) (h1 : t.x a ≤ x) (h2 : x ≤ t.x b) :
    ∃ i, a ≤ i ∧ i < b ∧ t.x i ≤ x ∧ x ≤ t.x (i + 1) := by
  induction b, hab using Nat.le_induction with
  | base => exact ⟨a, le_refl _, by omega, h1, h2⟩
  | succ b hab ih =>
    rcases le_total x (t.x b) with h | h
    · obtain ⟨i, hi1, hi2, hi3⟩ := ih h
      exact ⟨i, hi1, by omega, hi3⟩
    · exact ⟨b, by omega, by omega, h, h2⟩

/-- On a strictly increasing table `findindex` always succeeds for a point inside. -/
theorem findindex_spec {t : Tab K} (h : Good t) {s : LinState K} (hs : Inv t s) {x : K} (h1 : t.x 0 < x)
    (h2 : x < t.x (t.length - 1)) (hq : s.index = none ∨ ¬ (s.x0 ≤ x ∧ x < s.x1)) :
    ∃ s' i, findindex t x s = some s' ∧ Inv t s' ∧ s'.index = some i ∧ t.x i ≤ x ∧ x ≤ t.x (i + 1) := by
  have hl := h.len
  have hfind : ∃ i ∈ visited t x s, t.x i ≤ x ∧ x ≤ t.x (i + 1) ∧ i + 1 < t.length := by
    unfold visited
    cases hi : s.index with
    | none =>
      obtain ⟨i, _, hi2, hi3, hi4⟩ := exists_piece (t := t) x 0 (t.length - 1) (by omega) h1.le h2.le
      exact ⟨i, by simp; omega, hi3, hi4, by omega⟩
    | some k =>
      obtain ⟨k1, k2, k3, _⟩ := hs k hi
      have hq' : ¬ (s.x0 ≤ x ∧ x < s.x1) := by
        rcases hq with hq | hq
        · rw [hi] at hq; simp at hq
        · exact hq
      dsimp only
      split
      · rename_i hx
        rw [k3] at hx
        have hne : k + 1 < t.length - 1 := by
          by_contra hc
          have : k + 1 = t.length - 1 := by omega
          rw [this] at hx; exact absurd h2 (not_lt.mpr hx)
        obtain ⟨i, hi1, hi2, hi3, hi4⟩ := exists_piece (t := t) x (k + 1) (t.length - 1) hne hx h2.le
        exact ⟨i, by rw [List.mem_range'_1]; omega, hi3, hi4, by omega⟩
      · rename_i hx
        rw [k2, k3] at hq'
        rw [k3] at hx
        have hx0 : x < t.x k := by
          by_contra hc
          exact hq' ⟨not_lt.mp hc, not_le.mp hx⟩
        have hk0 : 0 < k := by
          by_contra hc
          have : k = 0 := by omega
          rw [this] at hx0; exact absurd h1 (not_lt.mpr hx0.le)
        obtain ⟨i, hi1, hi2, hi3, hi4⟩ := exists_piece (t := t) x 0 k hk0 h1.le hx0.le
        exact ⟨i, by simp; omega, hi3, hi4, by omega⟩
  obtain ⟨j, hj, hj1, hj2, hj3⟩ := hfind
  obtain ⟨i, hi, hi1, hi2, hi3, hi4, hi5, _⟩ := scan_finds t x (visited t x s) s ⟨j, hj, hj1, hj2⟩
  have hlt : i + 1 < t.length := by
    unfold visited at hi
    cases hk : s.index with
    | none => rw [hk] at hi; simp at hi; omega
    | some k =>
      obtain ⟨k1, _⟩ := hs k hk
      rw [hk] at hi
      dsimp only at hi
      split at hi
      · rw [List.mem_range'_1] at hi; omega
      · simp at hi; omega
  refine ⟨{ scan t x (visited t x s) s with f0 := t.f i, f1 := t.f (i + 1), deriv := (t.f (i + 1) - t.f i) / ((scan t x (visited t x s) s).x1 - (scan t x (visited t x s) s).x0) }, i, ?_, ?_, ?_, hi1, hi2⟩
  · unfold findindex
    dsimp only
    rw [hi3]
    dsimp only
    rw [if_pos ⟨by omega, by rw [hi4]; exact hi1, by rw [hi5]; exact hi2⟩]
  · intro k hk
    dsimp only at hk ⊢
    rw [hi3] at hk
    obtain rfl := Option.some.inj hk
    exact ⟨hlt, hi4, hi5, rfl, rfl, by rw [hi4, hi5]⟩
  · exact hi3

/-- The value in a cached interval. -/
theorem piece_value {t : Tab K} (h : Good t) {s : LinState K} (hs : Inv t s) {x : K} {i : ℕ} (hi : s.index = some i)
    (h1 : t.x i ≤ x) (h2 : x ≤ t.x (i + 1)) : IsInterp t x (s.f0 + s.deriv * (x - s.x0)) := by
  obtain ⟨k1, k2, k3, k4, k5, k6⟩ := hs i hi
  refine Or.inr (Or.inr ⟨i, k1, h1, h2, ?_⟩)
  have hp : t.x (i + 1) - t.x i ≠ 0 := sub_ne_zero.mpr (h.inc i k1).ne'
  rw [k2, k4, k6]
  field_simp
  ring

/-- **C43.** One query: on a strictly increasing table it never fails, returns the value of
the piecewise-linear interpolant, and keeps the cache consistent. -/
theorem linEval_spec {t : Tab K} (h : Good t) {s : LinState K} (hs : Inv t s) (x : K) :
    ∃ v s', linEval t s x = some (v, s') ∧ IsInterp t x v ∧ Inv t s' := by
  unfold linEval
  by_cases h1 : x ≤ t.x 0
  · rw [if_pos h1]; exact ⟨_, _, rfl, Or.inl ⟨h1, rfl⟩, hs⟩
  rw [if_neg h1]
  by_cases h2 : t.x (t.length - 1) ≤ x
  · rw [if_pos h2]; exact ⟨_, _, rfl, Or.inr (Or.inl ⟨h2, rfl⟩), hs⟩
  rw [if_neg h2]
  by_cases hq : s.index = none ∨ ¬ (s.x0 ≤ x ∧ x < s.x1)
  · rw [if_pos hq]
    obtain ⟨s', i, hf, hi, hidx, hx1, hx2⟩ := findindex_spec h (s := { s with flag := true }) hs (not_le.mp h1) (not_le.mp h2) hq
    rw [hf]
    exact ⟨_, s', rfl, piece_value h hi hidx hx1 hx2, hi⟩
  · rw [if_neg hq]
    push Not at hq
    obtain ⟨i, hi⟩ := Option.ne_none_iff_exists'.mp hq.1
    obtain ⟨k1, k2, k3, _⟩ := hs i hi
    refine ⟨_, s, rfl, piece_value h hs hi ?_ ?_, hs⟩
    · rw [← k2]; exact hq.2.1
    · rw [← k3]; exact hq.2.2.le

/-- A sequence of queries. -/
def linMany (t : Tab K) : LinState K → List K → Option (List K × LinState K)
  | s, [] => some ([], s)
  | s, x :: xs => do
    let (v, s) ← linEval t s x
    let (vs, s) ← linMany t s xs
    pure (v :: vs, s)

/-- **C43.** Whatever queries were made before, every query of every sequence on a freshly
constructed interpolator returns the interpolated value at its own point: the answers
do not depend on the history. -/
theorem history_irrelevant {t : Tab K} (h : Good t) (xs : List K) :
    ∃ s0 vs s, linNew t = some s0 ∧ linMany t s0 xs = some (vs, s) ∧ vs.length = xs.length ∧
      ∀ (k : ℕ) x v, xs[k]? = some x → vs[k]? = some v → IsInterp t x v := by
  obtain ⟨s0, hs0⟩ := Option.isSome_iff_exists.mp ((linNew_ok t).mpr h.len)
  have key : ∀ (xs : List K) (s : LinState K), Inv t s → ∃ vs s', linMany t s xs = some (vs, s') ∧ vs.length = xs.length ∧
      ∀ (k : ℕ) x v, xs[k]? = some x → vs[k]? = some v → IsInterp t x v := by
    intro xs
    induction xs with
    | nil => intro s _; exact ⟨[], s, rfl, rfl, fun k x v hk => by simp at hk⟩
    | cons x xs ih =>
      intro s hs
      obtain ⟨v, s1, h1, h2, h3⟩ := linEval_spec h hs x
      obtain ⟨vs, s2, h4, h5, h6⟩ := ih s1 h3
      refine ⟨v :: vs, s2, by simp [linMany, h1, h4], by simp [h5], ?_⟩
      intro k y w hy hw
      cases k with
      | zero =>
        obtain rfl : x = y := by simpa using hy
        obtain rfl : v = w := by simpa using hw
        exact h2
      | succ k => exact h6 k y w (by simpa using hy) (by simpa using hw)
  obtain ⟨vs, s, h1, h2, h3⟩ := key xs s0 (linNew_inv t s0 hs0)
  exact ⟨s0, vs, s, hs0, h1, h2, h3⟩

/-! ### The integral -/

/-- `w` is the value at `x` of the exact antiderivative, given its values `ti` at the
nodes: on each piece, and outside the table, it grows by the area under the
interpolant. -/
theorem intEval_spec {t ti : Tab K} (h : Good t) (hti : ti.length = t.length) {s : LinState K} (hs : Inv t s) (x : K) :
    ∃ w s', intEval t ti s x = some (w, s') ∧ Inv t s' ∧
      ((x ≤ t.x 0 ∧ w = ti.f 0 - (t.x 0 - x) * t.f 0) ∨
       (t.x (t.length - 1) ≤ x ∧ w = ti.f (t.length - 1) + (x - t.x (t.length - 1)) * t.f (t.length - 1)) ∨
       ∃ i v, i + 1 < t.length ∧ t.x i ≤ x ∧ x ≤ t.x (i + 1) ∧ IsInterp t x v ∧ w = ti.f i + (x - t.x i) * ((t.f i + v) / 2)) := by
  unfold intEval
  by_cases h1 : x ≤ t.x 0
  · rw [if_pos h1]; exact ⟨_, _, rfl, hs, Or.inl ⟨h1, by ring⟩⟩
  rw [if_neg h1]
  by_cases h2 : t.x (t.length - 1) ≤ x
  · rw [if_pos h2]; exact ⟨_, _, rfl, hs, Or.inr (Or.inl ⟨h2, by rw [hti]; ring⟩)⟩
  rw [if_neg h2]
  have fin : ∀ (s' : LinState K) i, Inv t s' → s'.index = some i → t.x i ≤ x → x ≤ t.x (i + 1) →
      ∃ i v, i + 1 < t.length ∧ t.x i ≤ x ∧ x ≤ t.x (i + 1) ∧ IsInterp t x v ∧
        ti.f i + (x - s'.x0) * s'.f0 + (x - s'.x0) * (x - s'.x0) * s'.deriv / 2 = ti.f i + (x - t.x i) * ((t.f i + v) / 2) ∧
        s'.index = some i := by
    intro s' i hi hidx hx1 hx2
    obtain ⟨k1, k2, k3, k4, k5, k6⟩ := hi i hidx
    refine ⟨i, _, k1, hx1, hx2, piece_value h hi hidx hx1 hx2, ?_, hidx⟩
    rw [k2, k4]; ring
  by_cases hq : s.index = none ∨ ¬ (s.x0 ≤ x ∧ x < s.x1)
  · obtain ⟨s', i, hf, hi, hidx, hx1, hx2⟩ := findindex_spec h hs (not_le.mp h1) (not_le.mp h2) hq
    obtain ⟨j, v, j1, j2, j3, j4, j5, j6⟩ := fin s' i hi hidx hx1 hx2
    rw [if_pos hq, hf]
    simp only [Option.bind_eq_bind, Option.bind_some, j6, Option.pure_def]
    exact ⟨_, s', rfl, hi, Or.inr (Or.inr ⟨j, v, j1, j2, j3, j4, j5⟩)⟩
  · rw [if_neg hq]
    push Not at hq
    obtain ⟨i, hi⟩ := Option.ne_none_iff_exists'.mp hq.1
    obtain ⟨k1, k2, k3, _⟩ := hs i hi
    obtain ⟨j, v, j1, j2, j3, j4, j5, j6⟩ := fin s i hs hi (by rw [← k2]; exact hq.2.1) (by rw [← k3]; exact hq.2.2.le)
    simp only [Option.bind_eq_bind, Option.bind_some, j6, Option.pure_def]
    exact ⟨_, s, rfl, hs, Or.inr (Or.inr ⟨j, v, j1, j2, j3, j4, j5⟩)⟩

theorem trapezLoop_spec (p : K × K) (sum : K) (rest : Tab K) :
    (trapezLoop p sum rest).1.length = rest.length ∧
    (trapezLoop p sum rest).1.map Prod.fst = rest.map Prod.fst ∧
    (∀ i, i < rest.length → Tab.f ((p.1, sum) :: (trapezLoop p sum rest).1) (i + 1) =
      Tab.f ((p.1, sum) :: (trapezLoop p sum rest).1) i +
        (Tab.x (p :: rest) (i + 1) - Tab.x (p :: rest) i) * ((Tab.f (p :: rest) (i + 1) + Tab.f (p :: rest) i) / 2)) ∧
    (trapezLoop p sum rest).2 = Tab.f ((p.1, sum) :: (trapezLoop p sum rest).1) rest.length := by
  induction rest generalizing p sum with
  | nil => obtain ⟨x0, y0⟩ := p; simp [trapezLoop, Tab.f]
  | cons q rest ih =>
    obtain ⟨x0, y0⟩ := p
    obtain ⟨x1, y1⟩ := q
    obtain ⟨i1, i2, i3, i4⟩ := ih (x1, y1) (sum + (x1 - x0) * ((y1 + y0) / 2))
    simp only [trapezLoop]
    refine ⟨by simp [i1], by simp [i2], ?_, ?_⟩
    · intro i hi
      cases i with
      | zero => simp [Tab.f, Tab.x]
      | succ i =>
        have := i3 i (by simpa using hi)
        simpa [Tab.f, Tab.x] using this
    · rw [i4]; simp [Tab.f]

/-- **C43.** The cumulative trapezoidal integral starts at zero and grows on each interval
by its width times the average of the end values; it is refused for fewer than two
points. -/
theorem trapez_spec (t : Tab K) :
    ((trapez t).isSome ↔ 2 ≤ t.length) ∧
    ∀ ti total, trapez t = some (ti, total) → ti.length = t.length ∧ ti.map Prod.fst = t.map Prod.fst ∧ ti.f 0 = 0 ∧
      (∀ i, i + 1 < t.length → ti.f (i + 1) = ti.f i + (t.x (i + 1) - t.x i) * ((t.f (i + 1) + t.f i) / 2)) ∧
      total = ti.f (t.length - 1) := by
  match t with
  | [] => simp [trapez]
  | [p] => simp [trapez]
  | p :: q :: rest =>
    refine ⟨by simp [trapez], ?_⟩
    intro ti total h
    simp only [trapez, Option.some.injEq, Prod.mk.injEq] at h
    obtain ⟨rfl, rfl⟩ := h
    obtain ⟨h1, h2, h3, h4⟩ := trapezLoop_spec p 0 (q :: rest)
    refine ⟨by simp [h1], by simp [h2], by simp [Tab.f], ?_, ?_⟩
    · intro i hi; exact h3 i (by simpa using hi)
    · rw [h4]; rfl

/-! ### The integral is the antiderivative (over the reals) -/

open intervalIntegral MeasureTheory

theorem integral_affine (c d x0 a b : ℝ) : ∫ y in a..b, (c + d * (y - x0)) = (b - a) * (((c + d * (a - x0)) + (c + d * (b - x0))) / 2) := by
  have h : ∀ y ∈ Set.uIcc a b, HasDerivAt (fun y => c * y + d * (y - x0) ^ 2 / 2) (c + d * (y - x0)) y := by
    intro y _
    have h1 : HasDerivAt (fun y => c * y) c y := by simpa using (hasDerivAt_id y).const_mul c
    have h2 : HasDerivAt (fun y => (y - x0) ^ 2) (2 * (y - x0)) y := by
      have := ((hasDerivAt_id' y).sub_const x0).fun_pow 2
      simpa using this
    have h3 := h1.fun_add ((h2.const_mul d).div_const 2)
    rw [show c + d * (2 * (y - x0)) / 2 = c + d * (y - x0) by ring] at h3
    exact h3
  rw [integral_eq_sub_of_hasDerivAt h (by apply Continuous.intervalIntegrable; fun_prop)]
  ring

/-- Integral of a function that is affine between `a` and `b`. -/
theorem integral_of_affine {g : ℝ → ℝ} {a b : ℝ} (c d x0 : ℝ) (h : ∀ y ∈ Set.uIcc a b, g y = c + d * (y - x0)) :
    IntervalIntegrable g volume a b ∧ ∫ y in a..b, g y = (b - a) * ((g a + g b) / 2) := by
  constructor
  · have : IntervalIntegrable (fun y => c + d * (y - x0)) volume a b := by
      apply Continuous.intervalIntegrable; fun_prop
    refine this.congr ?_
    intro y hy
    exact (h y (Set.uIoc_subset_uIcc hy)).symm
  · rw [integral_congr h, integral_affine, h a Set.left_mem_uIcc, h b Set.right_mem_uIcc]

/-- The interpolant at a node. -/
theorem interp_node {t : Tab ℝ} (h : Good t) {g : ℝ → ℝ} (hg : ∀ x, IsInterp t x (g x)) {i : ℕ} (hi : i < t.length) :
    g (t.x i) = t.f i := by
  have hl := h.len
  apply (hg (t.x i)).unique h
  by_cases h1 : i + 1 < t.length
  · exact Or.inr (Or.inr ⟨i, h1, le_refl _, (h.inc i h1).le, by ring⟩)
  · have : i = t.length - 1 := by omega
    subst this
    exact Or.inr (Or.inl ⟨le_refl _, rfl⟩)

/-- The interpolant is affine on each piece. -/
theorem interp_piece {t : Tab ℝ} (h : Good t) {g : ℝ → ℝ} (hg : ∀ x, IsInterp t x (g x)) {i : ℕ} (hi : i + 1 < t.length) {y : ℝ}
    (h1 : t.x i ≤ y) (h2 : y ≤ t.x (i + 1)) : g y = t.f i + (t.f (i + 1) - t.f i) / (t.x (i + 1) - t.x i) * (y - t.x i) := by
  apply (hg y).unique h
  have hp : t.x (i + 1) - t.x i ≠ 0 := sub_ne_zero.mpr (h.inc i hi).ne'
  exact Or.inr (Or.inr ⟨i, hi, h1, h2, by field_simp; ring⟩)

/-- The cumulative trapezoidal integral is the exact integral of the interpolant at the nodes. -/
theorem trapez_integral {t : Tab ℝ} (h : Good t) {ti : Tab ℝ} {total : ℝ} (hti : trapez t = some (ti, total))
    {g : ℝ → ℝ} (hg : ∀ x, IsInterp t x (g x)) {i : ℕ} (hi : i < t.length) :
    IntervalIntegrable g volume (t.x 0) (t.x i) ∧ ∫ y in (t.x 0)..(t.x i), g y = ti.f i := by
  obtain ⟨_, _, h0, hs, _⟩ := (trapez_spec t).2 ti total hti
  induction i with
  | zero => simp [h0]
  | succ i ih =>
    obtain ⟨i1, i2⟩ := ih (by omega)
    have hle := (h.inc i hi).le
    obtain ⟨j1, j2⟩ := integral_of_affine (g := g) (a := t.x i) (b := t.x (i + 1)) _ _ _ (fun y hy => by
      rw [Set.uIcc_of_le hle] at hy
      exact interp_piece h hg hi hy.1 hy.2)
    refine ⟨i1.trans j1, ?_⟩
    rw [← integral_add_adjacent_intervals i1 j1, i2, j2, hs i hi, interp_node h hg (by omega), interp_node h hg hi]
    ring

/-- **C43.** The integral companion: with the table produced by the trapezoidal rule, every
query, in any consistent state, returns the integral of the interpolant from the first
point of the table to the query point. -/
theorem intEval_integral {t : Tab ℝ} (h : Good t) {ti : Tab ℝ} {total : ℝ} (hti : trapez t = some (ti, total))
    {g : ℝ → ℝ} (hg : ∀ x, IsInterp t x (g x)) {s : LinState ℝ} (hs : Inv t s) (x : ℝ) :
    ∃ s', intEval t ti s x = some (∫ y in (t.x 0)..x, g y, s') ∧ Inv t s' := by
  have hl := h.len
  obtain ⟨hlen, _, h0, _, _⟩ := (trapez_spec t).2 ti total hti
  obtain ⟨w, s', h1, h2, h3⟩ := intEval_spec h hlen hs x
  refine ⟨s', ?_, h2⟩
  rw [h1]
  congr 2
  rcases h3 with ⟨h4, rfl⟩ | ⟨h4, rfl⟩ | ⟨i, v, hi, hx1, hx2, hv, rfl⟩
  · obtain ⟨_, j⟩ := integral_of_affine (g := g) (a := t.x 0) (b := x) (t.f 0) 0 0 (fun y hy => by
      rw [Set.uIcc_of_ge h4] at hy
      rw [zero_mul, add_zero]
      exact (hg y).unique h (Or.inl ⟨hy.2, rfl⟩))
    have gx : g x = t.f 0 := (hg x).unique h (Or.inl ⟨h4, rfl⟩)
    rw [j, h0, gx, interp_node h hg (by omega)]; ring
  · obtain ⟨k1, k2⟩ := trapez_integral h hti hg (show t.length - 1 < t.length by omega)
    obtain ⟨j1, j2⟩ := integral_of_affine (g := g) (a := t.x (t.length - 1)) (b := x) (t.f (t.length - 1)) 0 0 (fun y hy => by
      rw [Set.uIcc_of_le h4] at hy
      rw [zero_mul, add_zero]
      exact (hg y).unique h (Or.inr (Or.inl ⟨hy.1, rfl⟩)))
    have gx : g x = t.f (t.length - 1) := (hg x).unique h (Or.inr (Or.inl ⟨h4, rfl⟩))
    rw [← integral_add_adjacent_intervals k1 j1, k2, j2, gx, interp_node h hg (by omega)]; ring
  · obtain ⟨k1, k2⟩ := trapez_integral h hti hg (show i < t.length by omega)
    obtain ⟨j1, j2⟩ := integral_of_affine (g := g) (a := t.x i) (b := x) _ _ _ (fun y hy => by
      rw [Set.uIcc_of_le hx1] at hy
      exact interp_piece h hg hi hy.1 (hy.2.trans hx2))
    rw [← integral_add_adjacent_intervals k1 j1, k2, j2, interp_node h hg (show i < t.length by omega), (hg x).unique h hv]

/-- Such an interpolant exists for every good table, so the previous theorem is not vacuous. -/
theorem interp_exists {t : Tab ℝ} (h : Good t) : ∃ g : ℝ → ℝ, ∀ x, IsInterp t x (g x) := by
  obtain ⟨s0, hs0⟩ := Option.isSome_iff_exists.mp ((linNew_ok t).mpr h.len)
  have : ∀ x, ∃ v, IsInterp t x v := fun x => by
    obtain ⟨v, _, _, h2, _⟩ := linEval_spec h (linNew_inv t s0 hs0) x
    exact ⟨v, h2⟩
  exact ⟨fun x => (this x).choose, fun x => (this x).choose_spec⟩

/-! ### The clipped integral -/

/-- `integrate_ab` is the whole trapezoidal integral when no point lies beyond `b` (the
lower limit is never used). -/
theorem trapezAb_all (b : K) (p : K × K) (rest : Tab K) (h : ∀ q ∈ rest, q.1 ≤ b) (hs : List.Pairwise (fun q r => q.1 < r.1) (p :: rest))
    (sum : K) : sum + trapezAbLoop b (p :: rest) = (trapezLoop p sum rest).2 := by
  induction rest generalizing p sum with
  | nil => obtain ⟨x0, y0⟩ := p; simp [trapezAbLoop, trapezLoop]
  | cons q rest ih =>
    obtain ⟨x0, y0⟩ := p
    obtain ⟨x1, y1⟩ := q
    have hx1 : x1 ≤ b := h (x1, y1) (by simp)
    have hx0 : x0 < x1 := (List.pairwise_cons.mp hs).1 (x1, y1) (by simp)
    have := ih (x1, y1) (fun q hq => h q (by simp [hq])) (List.pairwise_cons.mp hs).2 (sum + (x1 - x0) * ((y1 + y0) / 2))
    simp only [trapezAbLoop, trapezLoop]
    rw [if_pos ⟨lt_of_lt_of_le hx0 hx1, hx1⟩, ← this]
    ring

/-- Finding: when `b` lies inside an interval, the end interval is cut in width but not in
height.  For `f(x) = x` on `[0, 2]` and `b = 1` the result is `1`; the integral of the
interpolant is `1/2`. -/
theorem trapezAb_cut_wrong : trapezAbLoop (1 : ℚ) [(0, 0), (2, 2)] = 1 ∧
    (intEval [(0, 0), (2, 2)] [(0, 0), (2, 2)] ⟨none, 0, 0, 0, 0, 0, false⟩ (1 : ℚ)).map Prod.fst = some (1 / 2) := by
  constructor <;> decide +kernel

/-! ### Examples -/

example : Good ([(0, 1), (1, 3), (3, -1)] : Tab ℚ) := ⟨by decide, fun i hi => by
  have : i + 1 < 3 := hi
  obtain rfl | rfl : i = 0 ∨ i = 1 := by omega
  · decide +kernel
  · decide +kernel⟩

/-- Queries moving up, down and outside; the repeated query gives the same value. -/
example : (linMany ([(0, 1), (1, 3), (3, -1)] : Tab ℚ) ⟨none, 0, 0, 0, 0, 0, false⟩ [1/2, 2, 1/2, -5, 1, 9, 2]).map Prod.fst =
    some [2, 1, 2, 1, 3, -1, 1] := by decide +kernel

example : trapez ([(0, 1), (1, 3), (3, -1)] : Tab ℚ) = some ([(0, 0), (1, 2), (3, 4)], 4) := by decide +kernel

end Verif.Tools
