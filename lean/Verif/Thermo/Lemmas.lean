import Verif.Thermo.Model
import Verif.Thermo.Spec
import Mathlib.Algebra.BigOperators.Group.List.Basic
import Mathlib.Algebra.BigOperators.Ring.List
import Mathlib.Algebra.Order.BigOperators.Group.List
import Mathlib.Tactic.LinearCombination
/-!
# Helper lemmas for `Verif.Thermo.Props`
-/

namespace Verif.Thermo
open Verif.Invar

/-! ### Canonical ensemble -/

namespace Spec

theorem sum_map_mul_left' {α} (l : List α) (c : ℝ) (f : α → ℝ) :
    (l.map fun a => c * f a).sum = c * (l.map f).sum := by
  induction l with
  | nil => simp
  | cons a l ih => simp [ih, mul_add]

theorem sum_map_mul_right' {α} (l : List α) (c : ℝ) (f : α → ℝ) :
    (l.map fun a => f a * c).sum = (l.map f).sum * c := by
  induction l with
  | nil => simp
  | cons a l ih => simp [ih, add_mul]

theorem sum_map_add' {α} (l : List α) (f g : α → ℝ) :
    (l.map fun a => f a + g a).sum = (l.map f).sum + (l.map g).sum := by
  induction l with
  | nil => simp
  | cons a l ih => simp [ih]; ring

theorem sum_map_nonneg {α} (l : List α) (f : α → ℝ) (h : ∀ a ∈ l, 0 ≤ f a) : 0 ≤ (l.map f).sum := by
  induction l with
  | nil => simp
  | cons a l ih =>
    simp only [List.map_cons, List.sum_cons]
    have h1 := h a (by simp)
    have h2 := ih fun b hb => h b (by simp [hb])
    linarith

theorem Z_nonneg (T : ℝ) (es : List ℝ) : 0 ≤ Z T es :=
  sum_map_nonneg _ _ fun _ _ => (Real.exp_pos _).le

theorem Z_pos (T : ℝ) (es : List ℝ) (h : es ≠ []) : 0 < Z T es := by
  cases es with
  | nil => exact absurd rfl h
  | cons e es =>
    have : Z T (e :: es) = Real.exp (-e / T) + Z T es := by simp [Z]
    rw [this]
    have := Z_nonneg T es
    have := Real.exp_pos (-e / T)
    linarith

theorem Z_append (T : ℝ) (a b : List ℝ) : Z T (a ++ b) = Z T a + Z T b := by simp [Z]

theorem Z_flatten (T : ℝ) (ls : List (List ℝ)) : Z T ls.flatten = (ls.map (Z T)).sum := by
  induction ls with
  | nil => simp [Z]
  | cons a ls ih => simp [Z_append, ih]

theorem exp_le_Z (T : ℝ) (es : List ℝ) (e : ℝ) (h : e ∈ es) : Real.exp (-e / T) ≤ Z T es := by
  induction es with
  | nil => simp at h
  | cons a es ih =>
    have e1 : Z T (a :: es) = Real.exp (-a / T) + Z T es := by simp [Z]
    rw [e1]
    have h1 := Z_nonneg T es
    have h2 := Real.exp_pos (-a / T)
    rcases List.mem_cons.1 h with rfl | h
    · linarith
    · have := ih h; linarith

theorem prob_le_one (T : ℝ) (es : List ℝ) (e : ℝ) (h : e ∈ es) : prob T es e ≤ 1 := by
  have hz : 0 < Z T es := Z_pos T es (List.ne_nil_of_mem h)
  rw [prob, div_le_one hz]
  exact exp_le_Z T es e h

theorem prob_pos (T : ℝ) (es : List ℝ) (e : ℝ) (h : es ≠ []) : 0 < prob T es e :=
  div_pos (Real.exp_pos _) (Z_pos T es h)

theorem sum_prob (T : ℝ) (es : List ℝ) (h : es ≠ []) : (es.map fun e => prob T es e).sum = 1 := by
  have hz := Z_pos T es h
  have : (es.map fun e => prob T es e).sum = (es.map fun e => Real.exp (-e / T)).sum * (Z T es)⁻¹ := by
    rw [← sum_map_mul_right']; rfl
  rw [this]
  exact mul_inv_cancel₀ hz.ne'

theorem mean_eq_div (T : ℝ) (es : List ℝ) (f : ℝ → ℝ) :
    mean T es f = (es.map fun e => Real.exp (-e / T) * f e).sum / Z T es := by
  rw [mean, div_eq_mul_inv, ← sum_map_mul_right']
  congr 1
  apply List.map_congr_left
  intro e _
  rw [prob]; ring

theorem mean_add (T : ℝ) (es : List ℝ) (f g : ℝ → ℝ) :
    mean T es (fun e => f e + g e) = mean T es f + mean T es g := by
  simp only [mean, mul_add, sum_map_add']

theorem mean_smul (T : ℝ) (es : List ℝ) (c : ℝ) (f : ℝ → ℝ) :
    mean T es (fun e => c * f e) = c * mean T es f := by
  simp only [mean, ← sum_map_mul_left']
  congr 1; apply List.map_congr_left; intro e _; ring

theorem mean_const (T : ℝ) (es : List ℝ) (h : es ≠ []) (c : ℝ) : mean T es (fun _ => c) = c := by
  rw [mean, sum_map_mul_right', sum_prob T es h, one_mul]

theorem variance_eq (T : ℝ) (es : List ℝ) (h : es ≠ []) :
    variance T es = mean T es (fun e => e ^ 2) - mean T es id ^ 2 := by
  rw [variance]
  generalize hm : mean T es id = m
  have : (fun e : ℝ => (e - m) ^ 2) = fun e => (e ^ 2 + (-2 * m) * id e) + m ^ 2 := by
    funext e; simp only [id]; ring
  rw [this, mean_add, mean_add, mean_smul, mean_const T es h, hm]
  ring

theorem variance_nonneg (T : ℝ) (es : List ℝ) : 0 ≤ variance T es := by
  by_cases h : es = []
  · subst h; simp [variance, mean]
  · exact sum_map_nonneg _ _ fun e _ => mul_nonneg (prob_pos T es e h).le (sq_nonneg _)

/-- `S = (E - F)/T` with `F = -T log Z`. -/
theorem entropy_eq (T : ℝ) (hT : T ≠ 0) (es : List ℝ) (h : es ≠ []) :
    entropy T es = mean T es id / T + Real.log (Z T es) := by
  have hz := Z_pos T es h
  have e1 : ∀ e, prob T es e * Real.log (prob T es e) =
      (-1 / T) * (prob T es e * id e) + prob T es e * (-Real.log (Z T es)) := by
    intro e
    have : Real.log (prob T es e) = -e / T - Real.log (Z T es) := by
      rw [prob, Real.log_div (Real.exp_pos _).ne' hz.ne', Real.log_exp]
    rw [this]; simp only [id]; ring
  have : (es.map fun e => prob T es e * Real.log (prob T es e)).sum
      = (-1 / T) * mean T es id - Real.log (Z T es) := by
    simp only [e1]
    rw [sum_map_add', sum_map_mul_left', sum_map_mul_right', sum_prob T es h, mean]
    ring
  rw [entropy, this]
  ring

theorem entropy_nonneg (T : ℝ) (es : List ℝ) : 0 ≤ entropy T es := by
  have : entropy T es = (es.map fun e => (-1) * (prob T es e * Real.log (prob T es e))).sum := by
    rw [entropy, sum_map_mul_left', neg_mul, one_mul]
  rw [this]
  apply sum_map_nonneg
  intro e he
  have h1 := prob_le_one T es e he
  have h2 := prob_pos T es e (List.ne_nil_of_mem he)
  have := Real.log_nonpos h2.le h1
  nlinarith

/-- For non-negative weights of total at most one, `(Σ w e)² ≤ Σ w e²`. -/
theorem sq_sum_le {α} (l : List α) (w f : α → ℝ) (hw : ∀ a ∈ l, 0 ≤ w a) (h1 : (l.map w).sum ≤ 1) :
    (l.map fun a => w a * f a).sum ^ 2 ≤ (l.map fun a => w a * (f a * f a)).sum := by
  generalize hm : (l.map fun a => w a * f a).sum = m
  have h0 : 0 ≤ (l.map fun a => w a * (f a - m) ^ 2).sum :=
    sum_map_nonneg _ _ fun a ha => mul_nonneg (hw a ha) (sq_nonneg _)
  have e : (l.map fun a => w a * (f a - m) ^ 2).sum
      = (l.map fun a => w a * (f a * f a)).sum - 2 * m * m + m ^ 2 * (l.map w).sum := by
    have : (fun a => w a * (f a - m) ^ 2) =
        fun a => (w a * (f a * f a) + (-2 * m) * (w a * f a)) + m ^ 2 * w a := by
      funext a; ring
    rw [this, sum_map_add', sum_map_add', sum_map_mul_left', sum_map_mul_left', hm]
    ring
  rw [e] at h0
  nlinarith [sq_nonneg m, mul_le_mul_of_nonneg_left h1 (sq_nonneg m)]

end Spec

/-! ### Physical states of the stored shells -/

theorem sum_flatMap {α} (l : List α) (g : α → List ℝ) (f : ℝ → ℝ) :
    ((l.flatMap g).map f).sum = (l.map fun a => ((g a).map f).sum).sum := by
  induction l with
  | nil => simp
  | cons a l ih => simp [ih]

theorem physShell_sum (mult : Label → Nat) (env : Nat) (sh : Shell) (f : ℝ → ℝ) :
    ((physShell mult env sh).map f).sum = (env : ℝ) * shellSum mult (fun s i => f (s.vals.absT i)) sh := by
  rw [physShell, sum_flatMap, shellSum, ← Spec.sum_map_mul_left']
  congr 1
  apply List.map_congr_left
  intro s _
  rw [sum_flatMap, ← Spec.sum_map_mul_left']
  congr 1
  apply List.map_congr_left
  intro i _
  simp only [List.map_replicate, List.sum_replicate, nsmul_eq_mul, Nat.cast_mul]
  ring

/-- All energies of a shell are referred to the same ground state and shift. -/
def Consistent (gs : ℝ) (sh : Shell) : Prop :=
  ∃ t, ∀ s ∈ sh, s.vals.absGS = gs ∧ s.vals.tShift = t

theorem shellSum_congr (mult : Label → Nat) (f g : Sub → Nat → ℝ) (sh : Shell)
    (h : ∀ s ∈ sh, ∀ i, f s i = g s i) : shellSum mult f sh = shellSum mult g sh := by
  rw [shellSum, shellSum]
  congr 1
  apply List.map_congr_left
  intro s hs
  congr 1
  apply List.map_congr_left
  intro i _
  rw [h s hs i]

theorem shellSum_smul (mult : Label → Nat) (c : ℝ) (f : Sub → Nat → ℝ) (sh : Shell) :
    shellSum mult (fun s i => c * f s i) sh = c * shellSum mult f sh := by
  rw [shellSum, shellSum, ← Spec.sum_map_mul_left']
  congr 1
  apply List.map_congr_left
  intro s _
  rw [← Spec.sum_map_mul_left']
  congr 1
  apply List.map_congr_left
  intro i _
  ring

theorem shellSum_nonneg (mult : Label → Nat) (f : Sub → Nat → ℝ) (sh : Shell) (h : ∀ s i, 0 ≤ f s i) :
    0 ≤ shellSum mult f sh :=
  Spec.sum_map_nonneg _ _ fun s _ => Spec.sum_map_nonneg _ _ fun i _ =>
    mul_nonneg (Nat.cast_nonneg _) (h s i)

/-- Boltzmann sum of a shell with total energies. -/
noncomputable def shellZ (T : ℝ) (mult : Label → Nat) (sh : Shell) : ℝ :=
  shellSum mult (fun s i => Real.exp (-(s.vals.absT i) / T)) sh

theorem shellZ_nonneg (T : ℝ) (mult : Label → Nat) (sh : Shell) : 0 ≤ shellZ T mult sh :=
  shellSum_nonneg _ _ _ fun _ _ => (Real.exp_pos _).le

theorem shellSum_absG (T gs : ℝ) (mult : Label → Nat) (sh : Shell) (h : Consistent gs sh) :
    shellSum mult (fun s i => Real.exp (-(s.vals.absG i) / T)) sh = Real.exp (gs / T) * shellZ T mult sh := by
  obtain ⟨t, h⟩ := h
  rw [shellZ, ← shellSum_smul]
  apply shellSum_congr
  intro s hs i
  rw [Values.absG, (h s hs).1, ← Real.exp_add]
  congr 1; ring

theorem shellSum_absZero (T gs : ℝ) (mult : Label → Nat) (sh : Shell) (h : Consistent gs sh) (g : ℝ → ℝ) :
    ∃ t : ℝ, shellSum mult (fun s i => Real.exp (-(s.vals.absZero i) / T) * g (s.vals.absT i)) sh
      = Real.exp (t / T) * shellSum mult (fun s i => Real.exp (-(s.vals.absT i) / T) * g (s.vals.absT i)) sh ∧
      shellSum mult (fun s i => Real.exp (-(s.vals.absZero i) / T)) sh = Real.exp (t / T) * shellZ T mult sh := by
  obtain ⟨t, h⟩ := h
  refine ⟨t, ?_, ?_⟩
  · rw [← shellSum_smul]
    apply shellSum_congr
    intro s hs i
    rw [← mul_assoc, ← Real.exp_add]
    congr 2
    simp only [Values.absT, (h s hs).2]; ring
  · rw [shellZ, ← shellSum_smul]
    apply shellSum_congr
    intro s hs i
    rw [← Real.exp_add]
    congr 1
    simp only [Values.absT, (h s hs).2]; ring

theorem Z_physShell (T : ℝ) (mult : Label → Nat) (env : Nat) (sh : Shell) :
    Spec.Z T (physShell mult env sh) = (env : ℝ) * shellZ T mult sh := physShell_sum _ _ _ _

/-- Weighted list version of the environment factors. -/
noncomputable def pows (combs n : Nat) : List ℝ :=
  (List.range n).map fun k => (combs : ℝ) ^ (n - k - 1)

theorem pows_succ (combs n : Nat) : pows combs (n + 1) = (combs : ℝ) ^ n :: pows combs n := by
  rw [pows, List.range_succ_eq_map, List.map_cons, List.map_map, pows]
  congr 1
  apply List.map_congr_left
  intro k _
  simp only [Function.comp]
  congr 1
  omega

theorem physStates_Z (T : ℝ) (mult : Label → Nat) (combs : Nat) (store : List Shell) :
    (physStates mult combs store).map (Spec.Z T)
      = ((store.map (shellZ T mult)).zip (pows combs store.length)).map fun p => p.1 * p.2 := by
  induction store with
  | nil => rfl
  | cons sh rest ih =>
    simp only [physStates, List.map_cons, List.length_cons, pows_succ, List.zip_cons_cons, ih, Z_physShell]
    congr 1
    push_cast
    ring

theorem physStates_length (mult : Label → Nat) (combs : Nat) (store : List Shell) :
    (physStates mult combs store).length = store.length := by
  induction store with
  | nil => rfl
  | cons _ _ ih => simp [physStates, ih]

end Verif.Thermo
