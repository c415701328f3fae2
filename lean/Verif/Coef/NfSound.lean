import Verif.Coef.Nf
import Mathlib.Tactic.Ring
import Mathlib.Tactic.FieldSimp
import Mathlib.Tactic.Positivity
import Mathlib.Tactic.Linarith
/-!
# Soundness of the normal form
-/

namespace Verif.Coef

/-! ### Polynomials -/

noncomputable def ev1 (v : ℝ) : P1 → ℝ
  | [] => 0
  | a :: p => a + v * ev1 v p

noncomputable def ev2 (u v : ℝ) : P2 → ℝ
  | [] => 0
  | r :: p => ev1 v r + u * ev2 u v p

variable {u v : ℝ}

theorem ev1_c1 (a : Int) (p : P1) : ev1 v (c1 a p) = a + v * ev1 v p := by
  cases p with
  | nil => simp only [c1]; split <;> simp_all [ev1]
  | cons b p => rfl

theorem ev2_c2 (a : P1) (p : P2) : ev2 u v (c2 a p) = ev1 v a + u * ev2 u v p := by
  cases p with
  | nil => cases a <;> simp [c2, ev2, ev1]
  | cons b p => rfl

theorem ev1_add (a b : P1) : ev1 v (add1 a b) = ev1 v a + ev1 v b := by
  induction a generalizing b with
  | nil => simp [add1, ev1]
  | cons x a ih =>
    cases b with
    | nil => simp [add1, ev1]
    | cons y b => simp only [add1, ev1_c1, ih, ev1]; push_cast; ring

theorem ev1_scale (c : Int) (a : P1) : ev1 v (scale1 c a) = c * ev1 v a := by
  induction a with
  | nil => simp [scale1, ev1]
  | cons x a ih => simp only [scale1, ev1, ih]; push_cast; ring

theorem ev1_mul (a b : P1) : ev1 v (mul1 a b) = ev1 v a * ev1 v b := by
  induction a with
  | nil => simp [mul1, ev1]
  | cons x a ih => simp only [mul1, ev1_add, ev1_scale, ev1_c1, ih, ev1]; push_cast; ring

theorem ev2_add (a b : P2) : ev2 u v (add2 a b) = ev2 u v a + ev2 u v b := by
  induction a generalizing b with
  | nil => simp [add2, ev2]
  | cons x a ih =>
    cases b with
    | nil => simp [add2, ev2]
    | cons y b => simp only [add2, ev2_c2, ih, ev2, ev1_add]; ring

theorem ev2_scale (c : Int) (a : P2) : ev2 u v (scale2 c a) = c * ev2 u v a := by
  induction a with
  | nil => simp [scale2, ev2]
  | cons x a ih => simp only [scale2, ev2, ih, ev1_scale]; ring

theorem ev2_mulRow (x : P1) (b : P2) : ev2 u v (mulRow x b) = ev1 v x * ev2 u v b := by
  induction b with
  | nil => simp [mulRow, ev2]
  | cons y b ih => simp only [mulRow, ev2, ih, ev1_mul]; ring

theorem ev2_mul (a b : P2) : ev2 u v (mul2 a b) = ev2 u v a * ev2 u v b := by
  induction a with
  | nil => simp [mul2, ev2]
  | cons x a ih => simp only [mul2, ev2_add, ev2_mulRow, ev2_c2, ih, ev2, ev1]; ring

theorem one2_eq {p : P2} (h : one2 p = true) : p = [[1]] := by
  unfold one2 at h
  split at h
  · simp only [beq_iff_eq] at h; rw [h]
  · cases h

theorem ev2_mulP (a b : P2) : ev2 u v (mulP a b) = ev2 u v a * ev2 u v b := by
  unfold mulP
  split
  · rename_i h; rw [one2_eq h]; simp [ev2, ev1]
  · split
    · rename_i h; rw [one2_eq h]; simp [ev2, ev1]
    · exact ev2_mul a b

theorem ev2_mulU (k : Nat) (p : P2) : ev2 u v (mulU k p) = (u + k) * ev2 u v p := by
  simp only [mulU, ev2_add, ev2_scale, ev2_c2, ev1]; push_cast; ring

theorem ev2_mulV (k : Nat) (p : P2) : ev2 u v (mulV k p) = (v + k) * ev2 u v p := by
  induction p with
  | nil => simp [mulV, ev2]
  | cons r p ih => simp only [mulV, ev2, ev1_add, ev1_scale, ev1_c1, ih]; push_cast; ring

theorem ev1_div (k : Nat) (p : P1) : ev1 v p = (div1 k p).1 + (v + k) * ev1 v (div1 k p).2 := by
  induction p with
  | nil => simp [div1, ev1]
  | cons a p ih =>
    simp only [div1, ev1, ev1_c1]
    rw [ih]; push_cast; ring

theorem ev2_divU (k : Nat) (p : P2) : ev2 u v p = ev1 v (divU k p).1 + (u + k) * ev2 u v (divU k p).2 := by
  induction p with
  | nil => simp [divU, ev2, ev1]
  | cons a p ih =>
    simp only [divU, ev2, ev2_c2, ev1_add, ev1_scale]
    rw [ih]; push_cast; ring

theorem ev2_divV (k : Nat) (p q : P2) (h : divV k p = some q) : ev2 u v p = (v + k) * ev2 u v q := by
  induction p generalizing q with
  | nil => simp only [divV, Option.some.injEq] at h; subst h; simp [ev2]
  | cons r p ih =>
    simp only [divV] at h
    split at h
    · rename_i hr
      simp only [Option.map_eq_some_iff] at h
      obtain ⟨q', hq, rfl⟩ := h
      rw [ev2, ev2, ih q' hq, ev1_div k r, hr]
      push_cast; ring
    · cases h

theorem pullU_spec (k : Nat) (fuel n : Nat) (p : P2) :
    ∃ m, (pullU k fuel n p).1 = n + m ∧ ev2 u v p = (u + k) ^ m * ev2 u v (pullU k fuel n p).2 := by
  induction fuel generalizing n p with
  | zero => exact ⟨0, rfl, by simp [pullU]⟩
  | succ fuel ih =>
    rw [pullU]
    split
    · rename_i q hq
      obtain ⟨m, h1, h2⟩ := ih (n + 1) q
      refine ⟨m + 1, by rw [h1]; omega, ?_⟩
      rw [ev2_divU k p, hq, pow_succ]
      simp only [ev1]
      rw [h2]; ring
    · exact ⟨0, rfl, by simp⟩

theorem pullV_spec (k : Nat) (fuel n : Nat) (p : P2) :
    ∃ m, (pullV k fuel n p).1 = n + m ∧ ev2 u v p = (v + k) ^ m * ev2 u v (pullV k fuel n p).2 := by
  induction fuel generalizing n p with
  | zero => exact ⟨0, rfl, by simp [pullV]⟩
  | succ fuel ih =>
    rw [pullV]
    split
    · rename_i q hq
      obtain ⟨m, h1, h2⟩ := ih (n + 1) q
      refine ⟨m + 1, by rw [h1]; omega, ?_⟩
      rw [ev2_divV k p q hq, pow_succ, h2]; ring
    · exact ⟨0, rfl, by simp⟩

theorem ev1_pos (hv : 0 ≤ v) (p : P1) (h : pos1 p = true) : 0 ≤ ev1 v p := by
  induction p with
  | nil => exact le_refl _
  | cons x p ih =>
    simp only [pos1, Bool.and_eq_true, decide_eq_true_eq] at h
    have h1 : (0 : ℝ) ≤ x := by exact_mod_cast h.1
    have := ih h.2
    rw [ev1]; positivity

theorem ev2_pos (hu : 0 ≤ u) (hv : 0 ≤ v) (p : P2) (h : pos2 p = true) : 0 ≤ ev2 u v p := by
  induction p with
  | nil => exact le_refl _
  | cons x p ih =>
    simp only [pos2, Bool.and_eq_true] at h
    have h1 := ev1_pos hv x h.1
    have := ih h.2
    rw [ev2]; positivity

theorem positive_sound (hu : 0 ≤ u) (hv : 0 ≤ v) (p : P2) (h : positive p = true) : 0 < ev2 u v p := by
  match p, h with
  | (x :: r) :: p, h =>
    simp only [positive, Bool.and_eq_true, decide_eq_true_eq] at h
    have h1 : (0 : ℝ) < x := by exact_mod_cast h.1
    have h2 := ev1_pos hv r h.2.1
    have h3 := ev2_pos hu hv p h.2.2
    rw [ev2, ev1]; positivity

/-! ### Exponents -/

noncomputable def evE (w : ℝ) : Nat → Exps → ℝ
  | _, [] => 1
  | k, e :: es => Real.sqrt (w + k) ^ e * evE w (k + 1) es

variable {w : ℝ}

theorem sqrt_add_pos (hw : 0 ≤ w) {k : Nat} (hk : 1 ≤ k) : 0 < Real.sqrt (w + k) := by
  apply Real.sqrt_pos.2
  have : (1 : ℝ) ≤ k := by exact_mod_cast hk
  linarith

theorem evE_pos (hw : 0 ≤ w) (es : Exps) {k : Nat} (hk : 1 ≤ k) : 0 < evE w k es := by
  induction es generalizing k with
  | nil => exact one_pos
  | cons e es ih =>
    have := ih (k := k + 1) (by omega)
    have := sqrt_add_pos hw hk
    rw [evE]; positivity

theorem evE_add (hw : 0 ≤ w) (a b : Exps) {k : Nat} (hk : 1 ≤ k) : evE w k (addE a b) = evE w k a * evE w k b := by
  induction a generalizing b k with
  | nil => simp [addE, evE]
  | cons x a ih =>
    cases b with
    | nil => simp [addE, evE]
    | cons y b =>
      simp only [addE, evE, ih b (k := k + 1) (by omega), zpow_add₀ (sqrt_add_pos hw hk).ne']; ring

theorem evE_neg (hw : 0 ≤ w) (a : Exps) {k : Nat} (hk : 1 ≤ k) : evE w k (negE a) = (evE w k a)⁻¹ := by
  induction a generalizing k with
  | nil => simp [negE, evE]
  | cons x a ih => simp only [negE, evE, ih (k := k + 1) (by omega), zpow_neg, mul_inv]

theorem evE_sub (hw : 0 ≤ w) (a b : Exps) {k : Nat} (hk : 1 ≤ k) : evE w k (addE a (negE b)) * evE w k b = evE w k a := by
  rw [evE_add hw _ _ hk, evE_neg hw _ hk]
  have := (evE_pos hw b hk).ne'
  field_simp

theorem evE_half (hw : 0 ≤ w) (a b : Exps) {k : Nat} (hk : 1 ≤ k) (h : halfE a = some b) :
    evE w k a = evE w k b * evE w k b := by
  induction a generalizing b k with
  | nil => simp only [halfE, Option.some.injEq] at h; subst h; simp [evE]
  | cons x a ih =>
    simp only [halfE] at h
    split at h
    · rename_i hx
      simp only [Option.map_eq_some_iff] at h
      obtain ⟨q, hq, rfl⟩ := h
      rw [evE, evE, ih q (k := k + 1) (by omega) hq]
      have e : x = x / 2 + x / 2 := by omega
      conv_lhs => rw [e]
      rw [zpow_add₀ (sqrt_add_pos hw hk).ne']; ring
    · cases h

theorem iter_spec {f : P2 → P2} {c : ℝ} (hf : ∀ p, ev2 u v (f p) = c * ev2 u v p) (n : Nat) (p : P2) :
    ev2 u v (iter f n p) = c ^ n * ev2 u v p := by
  induction n generalizing p with
  | zero => simp [iter]
  | succ n ih => rw [iter, ih, hf, pow_succ]; ring

theorem sqrt_even (hw : 0 ≤ w) {k : Nat} {e : Int} (h2 : e % 2 = 0) (h0 : 0 ≤ e) :
    Real.sqrt (w + k) ^ e = (w + k) ^ (e / 2).toNat := by
  obtain ⟨n, rfl⟩ := Int.eq_ofNat_of_zero_le h0
  have e1 : (((n : Int) / 2).toNat) = n / 2 := by omega
  have e2 : n = 2 * (n / 2) := by omega
  rw [e1, zpow_natCast]
  conv_lhs => rw [e2]
  rw [pow_mul, Real.sq_sqrt (by positivity)]

theorem expand_spec (hw : 0 ≤ w) {f : Nat → P2 → P2} (hf : ∀ k p, ev2 u v (f k p) = (w + k) * ev2 u v p)
    (es : Exps) (k : Nat) (p q : P2) (h : expand f k es p = some q) : ev2 u v q = evE w k es * ev2 u v p := by
  induction es generalizing k p with
  | nil => simp only [expand, Option.some.injEq] at h; subst h; simp [evE]
  | cons e es ih =>
    simp only [expand] at h
    split at h
    · rename_i h0
      rw [ih _ _ h, evE, h0]; simp
    · split at h
      · rename_i h0
        rw [ih _ _ h, iter_spec (hf k), evE, sqrt_even hw h0.1 h0.2]; ring
      · cases h

/-! ### Normal forms -/

noncomputable def Mono.val (u v : ℝ) (m : Mono) : ℝ :=
  (m.n : ℝ) / m.d * Real.sqrt m.r * evE u 1 m.eu * evE v 1 m.ev * ev2 u v m.p

namespace Mono

theorem val_const (n : Int) (d : Nat) : (const n d).val u v = (n : ℝ) / d := by
  simp [const, val, evE, ev2, ev1]

theorem val_reduce (m : Mono) : m.reduce.val u v = m.val u v := by
  unfold reduce
  split
  · rfl
  · rfl
  · rename_i g h0 _
    have hg : (Nat.gcd m.n.natAbs m.d : ℝ) ≠ 0 := by
      have : Nat.gcd m.n.natAbs m.d ≠ 0 := by rintro h; exact h0 h
      exact_mod_cast this
    have h1 : ((Nat.gcd m.n.natAbs m.d : Nat) : Int) ∣ m.n := Int.natCast_dvd.2 (Nat.gcd_dvd_left _ _)
    have h2 : Nat.gcd m.n.natAbs m.d ∣ m.d := Nat.gcd_dvd_right _ _
    simp only [val]
    rw [Int.cast_div h1 (by exact_mod_cast hg), Nat.cast_div h2 hg]
    congr 4
    push_cast
    rw [div_div_div_cancel_right₀ hg]

theorem val_neg (m : Mono) : m.neg.val u v = - m.val u v := by
  simp only [neg, val]; push_cast; ring

theorem sqrt_mul_gcd (a b : Nat) : Real.sqrt a * Real.sqrt b =
    (Nat.gcd a b : ℝ) * Real.sqrt ((a / Nat.gcd a b * (b / Nat.gcd a b) : Nat) : ℝ) := by
  obtain ⟨x, hx⟩ := Nat.gcd_dvd_left a b
  obtain ⟨y, hy⟩ := Nat.gcd_dvd_right a b
  generalize Nat.gcd a b = g at *
  rcases Nat.eq_zero_or_pos g with rfl | hg
  · subst hx hy; simp
  · subst hx hy
    rw [Nat.mul_div_cancel_left _ hg, Nat.mul_div_cancel_left _ hg]
    push_cast
    rw [Real.sqrt_mul (by positivity), Real.sqrt_mul (by positivity), Real.sqrt_mul (by positivity)]
    have := Real.mul_self_sqrt (show (0 : ℝ) ≤ g by positivity)
    calc _ = (Real.sqrt g * Real.sqrt g) * (Real.sqrt x * Real.sqrt y) := by ring
      _ = _ := by rw [this]

theorem val_mul (hu : 0 ≤ u) (hv : 0 ≤ v) (a b : Mono) : (a.mul b).val u v = a.val u v * b.val u v := by
  unfold mul
  rw [val_reduce]
  simp only [val]
  rw [evE_add hu _ _ le_rfl, evE_add hv _ _ le_rfl, ev2_mulP]
  have := sqrt_mul_gcd a.r b.r
  push_cast at this ⊢
  calc _ = (a.n : ℝ) / a.d * (b.n / b.d) * (Nat.gcd a.r b.r * Real.sqrt (((a.r / a.r.gcd b.r : Nat) : ℝ) * ((b.r / a.r.gcd b.r : Nat) : ℝ))) *
        (evE u 1 a.eu * evE u 1 b.eu) * (evE v 1 a.ev * evE v 1 b.ev) * (ev2 u v a.p * ev2 u v b.p) := by
        rw [div_mul_div_comm]; ring
    _ = _ := by rw [← this]; ring

theorem val_inv (hu : 0 ≤ u) (hv : 0 ≤ v) (a b : Mono) (h : a.inv = some b) : b.val u v = (a.val u v)⁻¹ ∧ a.val u v ≠ 0 := by
  unfold inv at h
  split at h
  · rename_i hc
    obtain ⟨hp, hn, hd, hr⟩ := hc
    simp only [Option.some.injEq] at h
    subst h
    rw [val_reduce]
    have p1 := evE_pos hu a.eu le_rfl
    have p2 := evE_pos hv a.ev le_rfl
    have hr' : 0 < Real.sqrt a.r := Real.sqrt_pos.2 (by positivity)
    have hs : Real.sqrt a.r * Real.sqrt a.r = a.r := Real.mul_self_sqrt (by positivity)
    have hn' : (a.n : ℝ) ≠ 0 := by exact_mod_cast hn
    have hd' : (a.d : ℝ) ≠ 0 := by exact_mod_cast hd
    have hr0 : (a.r : ℝ) ≠ 0 := by exact_mod_cast hr
    have e1 : ev2 u v ([[1]] : P2) = 1 := by simp [ev2, ev1]
    simp only [val, hp, e1]
    refine ⟨?_, by positivity⟩
    rw [evE_neg hu _ le_rfl, evE_neg hv _ le_rfl]
    have hcast : (((if 0 < a.n then (a.d : Int) else -a.d : Int) : ℝ)) / ((a.n.natAbs * a.r : Nat) : ℝ) =
        (a.d : ℝ) / (a.n * a.r) := by
      rcases lt_or_gt_of_ne hn with h | h
      · rw [if_neg (by omega)]
        have : ((a.n.natAbs : Nat) : ℝ) = -(a.n : ℝ) := by
          rw [Nat.cast_natAbs, abs_of_neg h]; push_cast; rfl
        push_cast
        rw [this, neg_mul, div_neg, neg_div, neg_neg]
      · rw [if_pos h]
        have : ((a.n.natAbs : Nat) : ℝ) = (a.n : ℝ) := by
          rw [Nat.cast_natAbs, abs_of_pos h]
        push_cast
        rw [this]
    rw [hcast]
    generalize Real.sqrt a.r = s at *
    generalize (a.r : ℝ) = r at *
    subst hs
    field_simp
  · cases h

theorem square_spec (q fuel a n : Nat) (hq : q ≠ 0) :
    (square q fuel a n).1 * (square q fuel a n).1 * (square q fuel a n).2 = a * a * n := by
  induction fuel generalizing a n with
  | zero => rfl
  | succ fuel ih =>
    rw [square]
    split
    · rename_i h
      rw [ih]
      obtain ⟨m, rfl⟩ := Nat.dvd_of_mod_eq_zero h
      rw [Nat.mul_div_cancel_left _ (by positivity)]
      ring
    · rfl

theorem val_sqrt (hu : 0 ≤ u) (hv : 0 ≤ v) (a b : Mono) (h : a.sqrt = some b) : 0 ≤ b.val u v ∧ b.val u v * b.val u v = a.val u v := by
  unfold sqrt at h
  split at h
  · rename_i hc
    obtain ⟨hp, hr, hn, hd⟩ := hc
    split at h
    · rename_i eu ev x y h1 h2 h3
      split at h
      · rename_i hxy
        simp only [Option.some.injEq] at h
        subst h
        rw [val_reduce]
        have p1 := evE_pos hu eu le_rfl
        have p2 := evE_pos hv ev le_rfl
        have e1 : ev2 u v ([[1]] : P2) = 1 := by simp [ev2, ev1]
        simp only [val, hp, e1, hr]
        rw [evE_half hu _ _ le_rfl h1, evE_half hv _ _ le_rfl h2]
        have hd' : (a.d : ℝ) ≠ 0 := by exact_mod_cast hd
        have hs : Real.sqrt y * Real.sqrt y = y := Real.mul_self_sqrt (by positivity)
        have hn2 : (a.n : ℝ) * a.d = x * x * y := by
          have : ((a.n.natAbs : Nat) : Int) = a.n := by omega
          have h' : (a.n : Int) * a.d = x * x * y := by
            rw [← this]; exact_mod_cast hxy.symm
          exact_mod_cast h'
        constructor
        · push_cast; positivity
        · have hn3 : (a.n : ℝ) / a.d = x * x * y / (a.d * a.d) := by
            rw [← hn2]; field_simp
          simp only [Nat.cast_one, Real.sqrt_one, mul_one]
          rw [hn3]
          push_cast
          generalize Real.sqrt y = s at *
          generalize (y : ℝ) = r at *
          subst hs
          field_simp
      · cases h
    · cases h
  · cases h

theorem sgn_sound (hu : 0 ≤ u) (hv : 0 ≤ v) (m : Mono) (b : Bool) (h : m.sgn = some b) :
    if b then m.val u v < 0 else 0 < m.val u v := by
  unfold sgn at h
  split at h
  · cases h
  · rename_i hz
    simp only [not_or] at hz
    obtain ⟨hn, hd, hr⟩ := hz
    have p1 := evE_pos hu m.eu le_rfl
    have p2 := evE_pos hv m.ev le_rfl
    have p3 : 0 < Real.sqrt m.r := Real.sqrt_pos.2 (by positivity)
    have p4 : (0 : ℝ) < m.d := by positivity
    have hval : m.val u v = m.n * (ev2 u v m.p * (Real.sqrt m.r * evE u 1 m.eu * evE v 1 m.ev / m.d)) := by
      simp only [val]; ring
    have p5 : 0 < Real.sqrt m.r * evE u 1 m.eu * evE v 1 m.ev / m.d := by positivity
    rw [hval]
    split at h
    · rename_i hp
      have p6 := mul_pos (positive_sound hu hv _ hp) p5
      simp only [Option.some.injEq] at h
      subst h
      by_cases h0 : m.n < 0
      · simp only [h0, decide_true, if_true]
        exact mul_neg_of_neg_of_pos (by exact_mod_cast h0) p6
      · simp only [h0, decide_false, Bool.false_eq_true, if_false]
        exact mul_pos (by exact_mod_cast (by omega : 0 < m.n)) p6
    · split at h
      · rename_i hp
        have p6 := positive_sound hu hv _ hp
        rw [ev2_scale] at p6
        have p7 : ev2 u v m.p * (Real.sqrt m.r * evE u 1 m.eu * evE v 1 m.ev / m.d) < 0 := by
          apply mul_neg_of_neg_of_pos _ p5
          push_cast at p6; linarith
        simp only [Option.some.injEq] at h
        subst h
        by_cases h0 : 0 < m.n
        · simp only [h0, decide_true, if_true]
          exact mul_neg_of_pos_of_neg (by exact_mod_cast h0) p7
        · simp only [h0, decide_false, Bool.false_eq_true, if_false]
          exact mul_pos_of_neg_of_neg (by exact_mod_cast (by omega : m.n < 0)) p7
      · cases h

theorem sqrt_two_mul (hw : 0 ≤ w) (k n : Nat) : Real.sqrt (w + k) ^ (2 * (n : Int)) = (w + k) ^ n := by
  rw [sqrt_even hw (by omega) (by omega)]
  congr 1; omega

theorem pullsU_spec (hu : 0 ≤ u) (n k : Nat) (p : P2) :
    ev2 u v p = evE u k (pullsU n k p).1 * ev2 u v (pullsU n k p).2 := by
  induction n generalizing k p with
  | zero => simp [pullsU, evE]
  | succ n ih =>
    rw [pullsU]
    split
    · simp [evE]
    · split
      · obtain ⟨a, ha, ha'⟩ := pullU_spec (u := u) (v := v) k 12 0 p
        simp only [evE]
        rw [mul_assoc, ← ih (k + 1), sqrt_two_mul hu, ha', ha, zero_add]
      · simp only [evE, zpow_zero, one_mul]
        exact ih (k + 1) p

theorem pullsV_spec (hu : 0 ≤ v) (n k : Nat) (p : P2) :
    ev2 u v p = evE v k (pullsV n k p).1 * ev2 u v (pullsV n k p).2 := by
  induction n generalizing k p with
  | zero => simp [pullsV, evE]
  | succ n ih =>
    rw [pullsV]
    split
    · simp [evE]
    · split
      · obtain ⟨a, ha, ha'⟩ := pullV_spec (u := u) (v := v) k 12 0 p
        simp only [evE]
        rw [mul_assoc, ← ih (k + 1), sqrt_two_mul hu, ha', ha, zero_add]
      · simp only [evE, zpow_zero, one_mul]
        exact ih (k + 1) p

theorem val_content (m : Mono) : m.content.val u v = m.val u v := by
  unfold content
  split
  · rfl
  · rfl
  · split
    · rename_i h
      simp only [val]
      conv_rhs => rw [← h]
      rw [ev2_scale]; push_cast; ring
    · rfl

theorem val_signOut (m : Mono) : m.signOut.val u v = m.val u v := by
  unfold signOut
  split
  · rename_i h
    simp only [val, h, ev2, ev1]; push_cast; ring
  · rfl

theorem val_pull (hu : 0 ≤ u) (hv : 0 ≤ v) (m : Mono) : m.pull.val u v = m.val u v := by
  simp only [pull, val]
  rw [evE_add hu _ _ le_rfl, evE_add hv _ _ le_rfl, pullsV_spec hv width 1 m.p,
    pullsU_spec hu width 1 (pullsV width 1 m.p).2]
  ring

theorem val_refactor (hu : 0 ≤ u) (hv : 0 ≤ v) (m : Mono) : m.refactor.val u v = m.val u v := by
  rw [refactor, val_reduce, val_signOut, val_pull hu hv, val_content]

theorem val_add (hu : 0 ≤ u) (hv : 0 ≤ v) (a b : Mono) (c : Option Mono) (h : a.add b = some c) :
    a.val u v + b.val u v = match c with
      | none => 0
      | some m => m.val u v := by
  unfold add at h
  by_cases hc : a.r = b.r ∧ a.d ≠ 0 ∧ b.d ≠ 0
  · rw [if_pos hc] at h
    obtain ⟨hr, had, hbd⟩ := hc
    generalize minE a.eu b.eu = eu at h
    generalize minE a.ev b.ev = ev at h
    dsimp only at h
    split at h
    · cases h
    · rename_i pa hpa
      split at h
      · cases h
      · rename_i pa' hpa'
        split at h
        · cases h
        · rename_i pb hpb
          split at h
          · cases h
          · rename_i pb' hpb'
            have e1 := expand_spec hu (fun k p => ev2_mulU (u := u) (v := v) k p) _ _ _ _ hpa
            have e2 := expand_spec hv (fun k p => ev2_mulV (u := u) (v := v) k p) _ _ _ _ hpa'
            have e3 := expand_spec hu (fun k p => ev2_mulU (u := u) (v := v) k p) _ _ _ _ hpb
            have e4 := expand_spec hv (fun k p => ev2_mulV (u := u) (v := v) k p) _ _ _ _ hpb'
            rw [ev2_scale] at e1 e3
            rw [e1] at e2
            rw [e3] at e4
            have had' : (a.d : ℝ) ≠ 0 := by exact_mod_cast had
            have hbd' : (b.d : ℝ) ≠ 0 := by exact_mod_cast hbd
            have key : a.val u v + b.val u v =
                1 / (a.d * b.d : ℝ) * Real.sqrt a.r * evE u 1 eu * evE v 1 ev * ev2 u v (add2 pa' pb') := by
              simp only [val]
              rw [ev2_add, e2, e4, ← evE_sub hu a.eu eu le_rfl, ← evE_sub hv a.ev ev le_rfl,
                ← evE_sub hu b.eu eu le_rfl, ← evE_sub hv b.ev ev le_rfl, ← hr]
              push_cast
              field_simp
            split at h
            · rename_i hz
              simp only [Option.some.injEq] at h
              subst h
              rw [key, hz]; simp [ev2]
            · rename_i x p hz
              simp only [Option.some.injEq] at h
              subst h
              dsimp only
              rw [val_refactor hu hv, key, hz]
              simp only [val]; push_cast; ring
  · rw [if_neg hc] at h; cases h

end Mono

/-! ### Abstract values -/

/-- An unknown or correct sign. -/
def SignOk (s : Option Bool) (b : Bool) : Prop := s = none ∨ s = some b

/-- The abstract value describes the value. -/
def Rel (u v : ℝ) : AVal → FVal → Prop
  | .fin m, .num y => y ≠ 0 ∧ y = m.val u v
  | .fin m, .zero _ => m.val u v = 0
  | .zero s, .zero b => SignOk s b
  | .inf s, .inf b => SignOk s b
  | .nan, .nan => True
  | _, _ => False

namespace AVal

theorem signOk_not {s : Option Bool} {b : Bool} (h : SignOk s b) : SignOk (notS s) (!b) := by
  rcases h with rfl | rfl
  · exact .inl rfl
  · exact .inr rfl

theorem signOk_xor {s t : Option Bool} {a b : Bool} (h : SignOk s a) (h' : SignOk t b) : SignOk (xorS s t) (a ^^ b) := by
  rcases h with rfl | rfl
  · exact .inl rfl
  · rcases h' with rfl | rfl
    · exact .inl rfl
    · exact .inr rfl

theorem signOk_comm {s t : Option Bool} {a b : Bool} (h : SignOk s a) (h' : SignOk t b) : SignOk (xorS s t) (b ^^ a) := by
  rw [Bool.xor_comm]; exact signOk_xor h h'

theorem signOk_addZ {s t : Option Bool} {a b : Bool} (h : SignOk s a) (h' : SignOk t b) : SignOk (addZ s t) (a && b) := by
  rcases h with rfl | rfl <;> rcases h' with rfl | rfl
  · exact .inl rfl
  · cases b
    · right; cases a <;> rfl
    · left; rfl
  · cases a
    · right; rfl
    · left; rfl
  · right; rfl

theorem rel_of {x : ℝ} {m : Mono} (h : x = m.val u v) : Rel u v (.fin m) (.of x) := by
  unfold FVal.of
  split
  · rename_i h0
    show m.val u v = 0
    rw [← h, h0]
  · rename_i h0; exact ⟨h0, h⟩

theorem ofRat_sound {n : Int} {d : Nat} {a : AVal} (h : ofRat n d = some a) : Rel u v a (.of ((n : ℝ) / d)) := by
  unfold ofRat at h
  split at h
  · cases h
  · rename_i hd
    split at h
    · rename_i hn
      simp only [Option.some.injEq] at h; subst h; subst hn
      simp [FVal.of, Rel, SignOk]
    · simp only [Option.some.injEq] at h; subst h
      exact rel_of (by rw [Mono.val_reduce, Mono.val_const])

theorem neg_sound {a : AVal} {x : FVal} (h : Rel u v a x) : Rel u v a.neg x.neg := by
  cases a <;> cases x <;> simp only [Rel] at h ⊢ <;> simp only [AVal.neg, FVal.neg, Rel]
  · exact ⟨neg_ne_zero.2 h.1, by rw [Mono.val_neg, h.2]⟩
  · rw [Mono.val_neg, h, neg_zero]
  · exact signOk_not h
  · exact signOk_not h

theorem sgn_fin (hu : 0 ≤ u) (hv : 0 ≤ v) {m : Mono} {x : FVal} (h : Rel u v (.fin m) x) {t : Bool} (ht : m.sgn = some t) :
    ∃ y, x = .num y ∧ y ≠ 0 ∧ y = m.val u v ∧ decide (y < 0) = t := by
  have hs := Mono.sgn_sound hu hv m t ht
  cases x with
  | num y =>
    simp only [Rel] at h
    refine ⟨y, rfl, h.1, h.2, ?_⟩
    rw [h.2]
    cases t
    · simp only [Bool.false_eq_true, if_false] at hs
      simp only [decide_eq_false_iff_not, not_lt]; exact hs.le
    · simpa using hs
  | zero b =>
    simp only [Rel] at h
    rw [h] at hs
    cases t <;> simp at hs
  | inf b => cases h
  | nan => cases h

theorem signOk_sgn (hu : 0 ≤ u) (hv : 0 ≤ v) {m : Mono} {y : ℝ} (h : Rel u v (.fin m) (.num y)) : SignOk m.sgn (decide (y < 0)) := by
  cases ht : m.sgn with
  | none => exact .inl rfl
  | some t =>
    obtain ⟨z, hz, _, _, h⟩ := sgn_fin hu hv h ht
    cases hz
    exact .inr (by rw [h])

theorem sgn_zero (hu : 0 ≤ u) (hv : 0 ≤ v) {m : Mono} {b : Bool} (h : Rel u v (.fin m) (.zero b)) : m.sgn = none := by
  cases ht : m.sgn with
  | none => rfl
  | some t =>
    obtain ⟨z, hz, _⟩ := sgn_fin hu hv h ht
    cases hz

theorem mul_sound (hu : 0 ≤ u) (hv : 0 ≤ v) {a b c : AVal} {x y : FVal} (ha : Rel u v a x) (hb : Rel u v b y)
    (h : a.mul b = some c) : Rel u v c (x.mul y) := by
  cases a with
  | nan =>
    cases x <;> simp only [Rel] at ha
    simp only [mul, Option.some.injEq] at h; subst h
    cases y <;> simp [FVal.mul, Rel]
  | inf s =>
    cases x <;> simp only [Rel] at ha
    cases b with
    | nan =>
      cases y <;> simp only [Rel] at hb
      simp only [mul, Option.some.injEq] at h; subst h
      simp [FVal.mul, Rel]
    | inf t =>
      cases y <;> simp only [Rel] at hb
      simp only [mul, Option.some.injEq] at h; subst h
      simp only [FVal.mul, Rel, FVal.sign]; exact signOk_xor ha hb
    | zero t =>
      cases y <;> simp only [Rel] at hb
      simp only [mul, Option.some.injEq] at h; subst h
      simp [FVal.mul, Rel]
    | fin m =>
      simp only [mul] at h
      split at h
      · cases h
      · rename_i t ht
        obtain ⟨z, rfl, h0, h1, h2⟩ := sgn_fin hu hv hb ht
        simp only [Option.some.injEq] at h; subst h
        simp only [FVal.mul, Rel, FVal.sign]
        exact signOk_xor ha (.inr (by rw [h2]))
  | zero s =>
    cases x <;> simp only [Rel] at ha
    cases b with
    | nan =>
      cases y <;> simp only [Rel] at hb
      simp only [mul, Option.some.injEq] at h; subst h
      simp [FVal.mul, Rel]
    | inf t =>
      cases y <;> simp only [Rel] at hb
      simp only [mul, Option.some.injEq] at h; subst h
      simp [FVal.mul, Rel]
    | zero t =>
      cases y <;> simp only [Rel] at hb
      simp only [mul, Option.some.injEq] at h; subst h
      simp only [FVal.mul, Rel, FVal.sign]; exact signOk_xor ha hb
    | fin m =>
      simp only [mul, Option.some.injEq] at h; subst h
      cases y with
      | num y =>
        simp only [FVal.mul, Rel, FVal.sign]
        exact signOk_xor ha (signOk_sgn hu hv hb)
      | zero t =>
        rw [sgn_zero hu hv hb]
        simp only [FVal.mul, Rel]
        left; cases s <;> rfl
      | inf t => cases hb
      | nan => cases hb
  | fin m =>
    cases b with
    | nan =>
      cases y <;> simp only [Rel] at hb
      simp only [mul, Option.some.injEq] at h; subst h
      cases x <;> simp only [Rel] at ha <;> simp [FVal.mul, Rel]
    | inf t =>
      cases y <;> simp only [Rel] at hb
      simp only [mul] at h
      split at h
      · cases h
      · rename_i s hs
        obtain ⟨z, rfl, h0, h1, h2⟩ := sgn_fin hu hv ha hs
        simp only [Option.some.injEq] at h; subst h
        simp only [FVal.mul, Rel, FVal.sign]
        exact signOk_comm hb (.inr (by rw [h2]))
    | zero t =>
      cases y <;> simp only [Rel] at hb
      simp only [mul, Option.some.injEq] at h; subst h
      cases x with
      | num x =>
        simp only [FVal.mul, Rel, FVal.sign]
        exact signOk_comm hb (signOk_sgn hu hv ha)
      | zero s =>
        rw [sgn_zero hu hv ha]
        simp only [FVal.mul, Rel]
        left; cases t <;> rfl
      | inf t => cases ha
      | nan => cases ha
    | fin m' =>
      simp only [mul, Option.some.injEq] at h; subst h
      cases x <;> simp only [Rel] at ha <;> cases y <;> simp only [Rel] at hb <;> simp only [FVal.mul, Rel, Mono.val_mul hu hv]
      · exact ⟨mul_ne_zero ha.1 hb.1, by rw [ha.2, hb.2]⟩
      · rw [hb, mul_zero]
      · rw [ha, zero_mul]
      · rw [ha, zero_mul]

theorem inv_sound (hu : 0 ≤ u) (hv : 0 ≤ v) {a b : AVal} {x : FVal} (ha : Rel u v a x) (h : a.inv = some b) : Rel u v b x.inv := by
  cases a with
  | fin m =>
    simp only [inv, Option.map_eq_some_iff] at h
    obtain ⟨m', h', rfl⟩ := h
    obtain ⟨h1, h2⟩ := Mono.val_inv hu hv m m' h'
    cases x with
    | num y => simp only [Rel] at ha; simp only [FVal.inv, Rel]; exact ⟨inv_ne_zero ha.1, by rw [h1, ha.2]⟩
    | zero t => simp only [Rel] at ha; exact absurd ha h2
    | inf t => cases ha
    | nan => cases ha
  | zero s => cases x <;> simp only [Rel] at ha; simp only [inv, Option.some.injEq] at h; subst h; exact ha
  | inf s => cases x <;> simp only [Rel] at ha; simp only [inv, Option.some.injEq] at h; subst h; exact ha
  | nan => cases x <;> simp only [Rel] at ha; simp only [inv, Option.some.injEq] at h; subst h; trivial

theorem sqrt_pos_sound (hu : 0 ≤ u) (hv : 0 ≤ v) {m q : Mono} {y : ℝ} (hy : y = m.val u v) (h0 : 0 < y) (h : m.sqrt = some q) :
    Real.sqrt y = q.val u v ∧ Real.sqrt y ≠ 0 := by
  obtain ⟨h1, h2⟩ := Mono.val_sqrt hu hv m q h
  refine ⟨?_, (Real.sqrt_pos.2 h0).ne'⟩
  rw [hy, ← h2, Real.sqrt_mul_self h1]

theorem sqrt_sound (hu : 0 ≤ u) (hv : 0 ≤ v) {a b : AVal} {x : FVal} (ha : Rel u v a x) (h : a.sqrt = some b) : Rel u v b x.sqrt := by
  cases a with
  | fin m =>
    simp only [sqrt] at h
    split at h
    · cases h
    · rename_i hs
      obtain ⟨z, rfl, h0, h1, h2⟩ := sgn_fin hu hv ha hs
      simp only [Option.some.injEq] at h; subst h
      simp only [decide_eq_true_eq] at h2
      simp [FVal.sqrt, h2, Rel]
    · rename_i hs
      obtain ⟨z, rfl, h0, h1, h2⟩ := sgn_fin hu hv ha hs
      simp only [Option.map_eq_some_iff] at h
      obtain ⟨q, hq, rfl⟩ := h
      simp only [decide_eq_false_iff_not, not_lt] at h2
      have hp : 0 < z := lt_of_le_of_ne h2 (Ne.symm h0)
      obtain ⟨e1, e2⟩ := sqrt_pos_sound hu hv h1 hp hq
      simp only [FVal.sqrt, if_neg (not_lt.2 h2), Rel]
      exact ⟨e2, e1⟩
  | zero s => cases x <;> simp only [Rel] at ha; simp only [sqrt, Option.some.injEq] at h; subst h; exact ha
  | inf s =>
    cases x <;> simp only [Rel] at ha
    cases s with
    | none => simp [sqrt] at h
    | some s =>
      rcases ha with h' | h'
      · cases h'
      · cases h'
        simp only [sqrt, Option.some.injEq] at h; subst h
        rename_i s
        cases s <;> simp [FVal.sqrt, Rel, SignOk]
  | nan => cases x <;> simp only [Rel] at ha; simp only [sqrt, Option.some.injEq] at h; subst h; trivial

theorem add_sound (hu : 0 ≤ u) (hv : 0 ≤ v) {a b c : AVal} {x y : FVal} (ha : Rel u v a x) (hb : Rel u v b y)
    (h : a.add b = some c) : Rel u v c (x.add y) := by
  cases a with
  | nan =>
    cases x <;> simp only [Rel] at ha
    simp only [add, Option.some.injEq] at h; subst h
    cases y <;> simp [FVal.add, Rel]
  | inf s =>
    cases x <;> simp only [Rel] at ha
    rename_i s'
    cases b with
    | nan =>
      cases y <;> simp only [Rel] at hb
      simp only [add, Option.some.injEq] at h; subst h
      simp [FVal.add, Rel]
    | inf t =>
      cases y <;> simp only [Rel] at hb
      rename_i t'
      cases s with
      | none => cases t <;> simp [add] at h
      | some s =>
        cases t with
        | none => simp [add] at h
        | some t =>
          simp only [add, Option.some.injEq] at h; subst h
          rcases ha with ha | ha <;> cases ha
          rcases hb with hb | hb <;> cases hb
          simp only [FVal.add]
          split <;> simp_all [Rel, SignOk]
    | zero t =>
      cases y <;> simp only [Rel] at hb
      simp only [add, Option.some.injEq] at h; subst h
      exact ha
    | fin m =>
      simp only [add, Option.some.injEq] at h; subst h
      cases y <;> simp only [Rel] at hb <;> exact ha
  | zero s =>
    cases x <;> simp only [Rel] at ha
    cases b with
    | nan =>
      cases y <;> simp only [Rel] at hb
      simp only [add, Option.some.injEq] at h; subst h
      simp [FVal.add, Rel]
    | inf t =>
      cases y <;> simp only [Rel] at hb
      simp only [add, Option.some.injEq] at h; subst h
      exact hb
    | zero t =>
      cases y <;> simp only [Rel] at hb
      simp only [add, Option.some.injEq] at h; subst h
      exact signOk_addZ ha hb
    | fin m =>
      simp only [add, Option.some.injEq] at h; subst h
      cases y <;> simp only [Rel] at hb <;> exact hb
  | fin m =>
    cases b with
    | nan =>
      cases y <;> simp only [Rel] at hb
      simp only [add, Option.some.injEq] at h; subst h
      cases x <;> simp only [Rel] at ha <;> simp [FVal.add, Rel]
    | inf t =>
      cases y <;> simp only [Rel] at hb
      simp only [add, Option.some.injEq] at h; subst h
      cases x <;> simp only [Rel] at ha <;> exact hb
    | zero t =>
      cases y <;> simp only [Rel] at hb
      simp only [add, Option.some.injEq] at h; subst h
      cases x <;> simp only [Rel] at ha <;> exact ha
    | fin m' =>
      simp only [add] at h
      split at h
      · cases h
      · rename_i hs
        have hsum := Mono.val_add hu hv m m' _ hs
        dsimp only at hsum
        simp only [Option.some.injEq] at h; subst h
        cases x with
        | num x =>
          have ha' := ha
          simp only [Rel] at ha
          cases y with
          | num y =>
            simp only [Rel] at hb
            rw [FVal.add, ha.2, hb.2, hsum]
            simp only [FVal.of, if_true, Rel]
            split
            · exact .inr rfl
            · exact .inl rfl
          | zero t =>
            simp only [Rel] at hb
            rw [hb, add_zero, ← ha.2] at hsum
            exact absurd hsum ha.1
          | inf t => cases hb
          | nan => cases hb
        | zero s =>
          have hn := sgn_zero hu hv ha
          simp only [Rel] at ha
          cases y with
          | num y =>
            simp only [Rel] at hb
            rw [ha, zero_add, ← hb.2] at hsum
            exact absurd hsum hb.1
          | zero t =>
            rw [hn]
            simp [FVal.add, Rel, SignOk]
          | inf t => cases hb
          | nan => cases hb
        | inf t => cases ha
        | nan => cases ha
      · rename_i q hs
        have hsum := Mono.val_add hu hv m m' _ hs
        dsimp only at hsum
        simp only [Option.some.injEq] at h; subst h
        cases x <;> simp only [Rel] at ha <;> cases y <;> simp only [Rel] at hb <;> simp only [FVal.add]
        · exact rel_of (by rw [ha.2, hb.2, hsum])
        · exact ⟨ha.1, by rw [← hsum, hb, ha.2, add_zero]⟩
        · exact ⟨hb.1, by rw [← hsum, ha, hb.2, zero_add]⟩
        · show q.val u v = 0
          rw [← hsum, ha, hb, add_zero]

theorem pow_sound (hu : 0 ≤ u) (hv : 0 ≤ v) {a b : AVal} {x : FVal} (ha : Rel u v a x) (n : Nat) (h : a.pow n = some b) :
    Rel u v b (x.pow n) := by
  induction n using Nat.strong_induction_on generalizing b with
  | _ n ih =>
    match n, h with
    | 0, h =>
      simp only [pow, Option.some.injEq] at h; subst h
      simp [FVal.pow, Rel, Mono.val_const]
    | 1, h =>
      simp only [pow, Option.some.injEq] at h; subst h
      exact ha
    | n + 2, h =>
      simp only [pow] at h
      split at h
      · cases h
      · rename_i b' hb
        exact mul_sound hu hv (ih (n + 1) (by omega) hb) ha h

theorem pow_num {x : ℝ} (n : Nat) (hn : n ≠ 0) : (FVal.num x).pow n = .num (x ^ n) := by
  induction n with
  | zero => exact absurd rfl hn
  | succ n ih =>
    cases n with
    | zero => simp [FVal.pow]
    | succ n => rw [FVal.pow, ih (by omega), pow_succ _ (n + 1)]; rfl

theorem hpow_sound (hu : 0 ≤ u) (hv : 0 ≤ v) {a b : AVal} {x : FVal} (ha : Rel u v a x) (n : Nat) (h : a.hpow n = some b) :
    Rel u v b (x.hpow n) := by
  cases a with
  | fin m =>
    simp only [hpow] at h
    split at h
    · cases h
    · rename_i hs
      obtain ⟨z, rfl, h0, h1, h2⟩ := sgn_fin hu hv ha hs
      simp only [Option.some.injEq] at h; subst h
      simp only [decide_eq_true_eq] at h2
      simp [FVal.hpow, h2, Rel]
    · rename_i hs
      obtain ⟨z, rfl, h0, h1, h2⟩ := sgn_fin hu hv ha hs
      split at h
      · cases h
      · rename_i q hq
        simp only [decide_eq_false_iff_not, not_lt] at h2
        have hp : 0 < z := lt_of_le_of_ne h2 (Ne.symm h0)
        obtain ⟨e1, e2⟩ := sqrt_pos_sound hu hv h1 hp hq
        have := pow_sound hu hv (show Rel u v (.fin q) (.num (Real.sqrt z)) from ⟨e2, e1⟩) _ h
        rw [pow_num _ (by omega)] at this
        simpa [FVal.hpow, not_lt.2 h2] using this
  | zero s =>
    cases x <;> simp only [Rel] at ha
    simp only [hpow, Option.some.injEq] at h; subst h; exact .inr rfl
  | inf s =>
    cases x <;> simp only [Rel] at ha
    simp only [hpow, Option.some.injEq] at h; subst h; exact .inr rfl
  | nan => cases x <;> simp only [Rel] at ha; simp only [hpow, Option.some.injEq] at h; subst h; trivial

end AVal

/-- The normal form describes the value of the expression. -/
theorem Ex.norm_sound (hu : 0 ≤ u) (hv : 0 ≤ v) {env : Nat → Option AVal} {envR : Nat → ℝ}
    (he : ∀ i a, env i = some a → Rel u v a (.of (envR i))) (e : Ex) {a : AVal} (h : e.norm env = some a) :
    Rel u v a (e.eval envR) := by
  induction e generalizing a with
  | num n d => exact AVal.ofRat_sound h
  | var i => exact he i a h
  | neg e ih =>
    simp only [norm, Option.map_eq_some_iff] at h
    obtain ⟨b, hb, rfl⟩ := h
    exact AVal.neg_sound (ih hb)
  | add e f ihe ihf =>
    simp only [norm] at h
    split at h
    · rename_i x y hx hy; exact AVal.add_sound hu hv (ihe hx) (ihf hy) h
    · cases h
  | sub e f ihe ihf =>
    simp only [norm] at h
    split at h
    · rename_i x y hx hy; exact AVal.add_sound hu hv (ihe hx) (AVal.neg_sound (ihf hy)) h
    · cases h
  | mul e f ihe ihf =>
    simp only [norm] at h
    split at h
    · rename_i x y hx hy; exact AVal.mul_sound hu hv (ihe hx) (ihf hy) h
    · cases h
  | div e f ihe ihf =>
    simp only [norm] at h
    split at h
    · rename_i x y hx hy
      split at h
      · rename_i z hz; exact AVal.mul_sound hu hv (ihe hx) (AVal.inv_sound hu hv (ihf hy) hz) h
      · cases h
    · cases h
  | pow e n ih =>
    simp only [norm, Option.bind_eq_some_iff] at h
    obtain ⟨b, hb, h⟩ := h
    exact AVal.pow_sound hu hv (ih hb) n h
  | ipow e n ih =>
    simp only [norm, Option.bind_eq_some_iff] at h
    obtain ⟨c, ⟨b, hb, h⟩, h'⟩ := h
    exact AVal.inv_sound hu hv (AVal.pow_sound hu hv (ih hb) n h) h'
  | hpow e n ih =>
    simp only [norm, Option.bind_eq_some_iff] at h
    obtain ⟨b, hb, h⟩ := h
    exact AVal.hpow_sound hu hv (ih hb) n h
  | sqrt e ih =>
    simp only [norm, Option.bind_eq_some_iff] at h
    obtain ⟨b, hb, h⟩ := h
    exact AVal.sqrt_sound hu hv (ih hb) h

end Verif.Coef
