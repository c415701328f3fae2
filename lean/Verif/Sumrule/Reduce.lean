import Verif.Dm.Lemmas
import Verif.Ops.Props
/-!
# Reducing density matrices and carrying operators forward are adjoint to each other
-/

namespace Verif.Sumrule
open Verif.Invar Verif.Symm Verif.Mat Verif.Dm Finset
variable {K : Type} [Field K] [StarRing K]

/-- The matrix elements of an operator that conserves all quantum numbers: `P I a b` is
the element between the states `a` and `b` of the subspace `I`. -/
abbrev Scalar (K : Type) := Label → ℕ → ℕ → K

/-- `∑ mult(I) Tr[ρ_I P_I]`: the expectation value of `P`. -/
def expect (S : Symmetry) (ρ : Rho K) (P : Scalar K) : K :=
  (ρ.map fun p => ((mult S.fields p.1 : ℤ) : K) * ∑ a ∈ range p.2.c, ∑ b ∈ range p.2.c, p.2.e a b * P p.1 b a).sum

/-- The matrix element `(k, l)` of `P` in the eigenvectors `E` of the subspace `J`: `P`
acts on the states of the previous step only. -/
def carried (S : Symmetry) (E : Eig K) (J : Label) (P : Scalar K) (k l : ℕ) : K :=
  ∑ i ∈ range S.combs, ∑ a ∈ range (E.U.getD i empty).c, ∑ b ∈ range (E.U.getD i empty).c,
    (E.U.getD i empty).e k a * P (anc S J (S.table.getD i ([], []))) a b * star ((E.U.getD i empty).e l b)

/-- `Q` is `P` carried to the step with the eigenvectors `diag`. -/
def Carried (S : Symmetry) (diag : DiagU K) (P Q : Scalar K) : Prop :=
  ∀ p ∈ diag, ∀ k < p.2.nr, ∀ l < p.2.nr, Q p.1 k l = carried S p.2 p.1 P k l

theorem quad_expect (S : Symmetry) (E : Eig K) (J : Label) (ρ : Mat K) (P : Scalar K) :
    ∑ i ∈ range S.combs, ∑ a ∈ range (E.U.getD i empty).c, ∑ b ∈ range (E.U.getD i empty).c,
        quad ρ (E.U.getD i empty) a b * P (anc S J (S.table.getD i ([], []))) b a
      = ∑ k ∈ range ρ.c, ∑ l ∈ range ρ.c, ρ.e k l * carried S E J P l k := by
  have h : ∀ i, (∑ a ∈ range (E.U.getD i empty).c, ∑ b ∈ range (E.U.getD i empty).c,
        quad ρ (E.U.getD i empty) a b * P (anc S J (S.table.getD i ([], []))) b a)
      = ∑ k ∈ range ρ.c, ∑ l ∈ range ρ.c, ρ.e k l *
        ∑ b ∈ range (E.U.getD i empty).c, ∑ a ∈ range (E.U.getD i empty).c,
          (E.U.getD i empty).e l b * P (anc S J (S.table.getD i ([], []))) b a * star ((E.U.getD i empty).e k a) := by
    intro i
    generalize E.U.getD i empty = U
    generalize anc S J (S.table.getD i ([], [])) = A
    simp only [quad, sum_mul, mul_sum]
    calc _ = ∑ a ∈ range U.c, ∑ b ∈ range U.c, ∑ k ∈ range ρ.c, ∑ l ∈ range ρ.c,
          star (U.e k a) * ρ.e k l * U.e l b * P A b a :=
          sum_congr rfl fun a _ => sum_congr rfl fun b _ => sum_comm
      _ = ∑ a ∈ range U.c, ∑ k ∈ range ρ.c, ∑ b ∈ range U.c, ∑ l ∈ range ρ.c,
          star (U.e k a) * ρ.e k l * U.e l b * P A b a := sum_congr rfl fun a _ => sum_comm
      _ = ∑ k ∈ range ρ.c, ∑ a ∈ range U.c, ∑ b ∈ range U.c, ∑ l ∈ range ρ.c,
          star (U.e k a) * ρ.e k l * U.e l b * P A b a := sum_comm
      _ = ∑ k ∈ range ρ.c, ∑ b ∈ range U.c, ∑ a ∈ range U.c, ∑ l ∈ range ρ.c,
          star (U.e k a) * ρ.e k l * U.e l b * P A b a := sum_congr rfl fun k _ => sum_comm
      _ = ∑ k ∈ range ρ.c, ∑ b ∈ range U.c, ∑ l ∈ range ρ.c, ∑ a ∈ range U.c,
          star (U.e k a) * ρ.e k l * U.e l b * P A b a :=
          sum_congr rfl fun k _ => sum_congr rfl fun b _ => sum_comm
      _ = ∑ k ∈ range ρ.c, ∑ l ∈ range ρ.c, ∑ b ∈ range U.c, ∑ a ∈ range U.c,
          star (U.e k a) * ρ.e k l * U.e l b * P A b a := sum_congr rfl fun k _ => sum_comm
      _ = _ := sum_congr rfl fun k _ => sum_congr rfl fun l _ => sum_congr rfl fun b _ =>
          sum_congr rfl fun a _ => by ring
  rw [sum_congr rfl fun i _ => h i, sum_comm]
  refine sum_congr rfl fun k _ => ?_
  rw [sum_comm]
  refine sum_congr rfl fun l _ => ?_
  rw [← mul_sum]
  rfl

/-- The expectation value of `P` in the reduced density matrix is that of the carried
operator in the original one. -/
theorem entrySum_expect {S : Symmetry} (hv : RowsValid S) {prev : BackShell} {cur : Shell K} (hL : Linked S prev cur)
    [CharZero K] {rho : Rho K} (hR : Fits rho cur.diag) (P Q : Scalar K) (hQ : Carried S cur.diag P Q) :
    (prev.map fun p => ((mult S.fields p.1 : ℤ) : K) *
        ∑ a ∈ range p.2.kept, ∑ b ∈ range p.2.kept, entrySum S cur rho p.1 a b * P p.1 b a).sum
      = expect S rho Q := by
  let T : ℕ → Label → Mat K → ℕ → K := fun i J ρ n =>
    match cur.diag.lookup J, cur.store.lookup J with
    | some E, some s => if s.rmax.getD i 0 = 0 then 0 else
        ((mult S.fields J : ℤ) : K) * ∑ a ∈ range n, ∑ b ∈ range n, quad ρ (E.U.getD i empty) a b *
          P (anc S J (S.table.getD i ([], []))) b a
    | _, _ => 0
  have step1 : ∀ p ∈ prev, ((mult S.fields p.1 : ℤ) : K) *
        ∑ a ∈ range p.2.kept, ∑ b ∈ range p.2.kept, entrySum S cur rho p.1 a b * P p.1 b a
      = ∑ i ∈ range S.combs, (rho.map fun q => if q.1 = below S p.1 i then T i q.1 q.2 p.2.kept else 0).sum := by
    intro p hp
    have hm : ((mult S.fields p.1 : ℤ) : K) ≠ 0 := by
      have := (hL.prevLabels p hp).2
      exact_mod_cast (by omega : mult S.fields p.1 ≠ 0)
    simp only [entrySum, sum_mul]
    have e : (∑ a ∈ range p.2.kept, ∑ b ∈ range p.2.kept, ∑ i ∈ range S.combs,
        multRatio S (below S p.1 i) p.1 * contr cur.store cur.diag rho i (below S p.1 i) a b * P p.1 b a)
        = ∑ i ∈ range S.combs, ∑ a ∈ range p.2.kept, ∑ b ∈ range p.2.kept,
        multRatio S (below S p.1 i) p.1 * (contr cur.store cur.diag rho i (below S p.1 i) a b * P p.1 b a) := by
      refine ((sum_congr rfl fun a _ => sum_comm).trans sum_comm).trans ?_
      refine sum_congr rfl fun i _ => sum_congr rfl fun a _ => sum_congr rfl fun b _ => by ring
    rw [e, mul_sum]
    refine sum_congr rfl fun i hi => ?_
    have hi' : i < S.combs := by simpa using hi
    rw [sum_lookup rho hR.1 (below S p.1 i) fun J ρ => T i J ρ p.2.kept]
    simp only [← mul_sum]
    rw [← mul_assoc, multRatio, mul_div_cancel₀ _ hm]
    simp only [contr, T]
    cases h1 : rho.lookup (below S p.1 i) with
    | none => simp
    | some ρ =>
      cases h2 : cur.diag.lookup (below S p.1 i) with
      | none => simp
      | some E =>
        cases h3 : cur.store.lookup (below S p.1 i) with
        | none => simp
        | some s =>
          simp only
          have hJv := (hL.curLabels _ (mem_of_lookup _ _ _ h2)).1
          rw [(anc_eq_iff S hv p.1 (below S p.1 i) _ (List.mem_of_getElem? (table_getD S i hi'))
            (hL.prevLabels p hp).1 hJv).2 rfl]
          split <;> simp
  rw [List.map_congr_left step1, sum_swap_range]
  have step2 : ∀ i ∈ range S.combs,
      (prev.map fun p => (rho.map fun q => if q.1 = below S p.1 i then T i q.1 q.2 p.2.kept else 0).sum).sum
      = (rho.map fun q => ((mult S.fields q.1 : ℤ) : K) *
          (match cur.diag.lookup q.1 with
            | some E => ∑ a ∈ range (E.U.getD i empty).c, ∑ b ∈ range (E.U.getD i empty).c,
                quad q.2 (E.U.getD i empty) a b * P (anc S q.1 (S.table.getD i ([], []))) b a
            | none => 0)).sum := by
    intro i hi
    have hi' : i < S.combs := by simpa using hi
    rw [sum_swap]
    congr 1
    apply List.map_congr_left
    intro q hq
    obtain ⟨hsq, E, hE, hle⟩ := hR.2 q hq
    have hmem := mem_of_lookup _ _ _ hE
    obtain ⟨s, hs, hok⟩ := hL.eigs _ hmem
    simp only at hs hok
    have hJv := (hL.curLabels _ hmem).1
    simp only at hJv
    obtain ⟨e1, e2, e3, e4⟩ := eig_rmax hok i hi'
    have hr := table_getD S i hi'
    have hrm := List.mem_of_getElem? hr
    have hiff : ∀ p ∈ prev, (if q.1 = below S p.1 i then T i q.1 q.2 p.2.kept else 0)
        = if p.1 = anc S q.1 (S.table.getD i ([], [])) then T i q.1 q.2 p.2.kept else 0 := by
      intro p hp
      have := anc_eq_iff S hv p.1 q.1 _ hrm (hL.prevLabels p hp).1 hJv
      by_cases h : q.1 = below S p.1 i
      · rw [if_pos h, if_pos (this.2 h).symm]
      · rw [if_neg h, if_neg fun h' => h (this.1 h'.symm)]
    rw [List.map_congr_left hiff,
      sum_lookup prev hL.prevNodup (anc S q.1 (S.table.getD i ([], []))) fun _ s => T i q.1 q.2 s.kept]
    simp only [hE, T, hs, e4]
    rcases rmax_cases hv hJv hok.dims i _ hr with h | ⟨s', hs', h⟩
    · rw [e4] at h
      simp only [h, if_true, range_zero, sum_empty, mul_zero]
      split <;> rfl
    · rw [e4] at h
      rw [hs']
      simp only [h]
      split
      · rename_i h0; simp [h0]
      · rfl
  rw [sum_congr rfl step2, ← sum_swap_range, expect]
  congr 1
  apply List.map_congr_left
  intro q hq
  obtain ⟨hsq, E, hE, hle⟩ := hR.2 q hq
  have hmem := mem_of_lookup _ _ _ hE
  simp only [hE]
  rw [← mul_sum, quad_expect]
  congr 1
  refine sum_congr rfl fun k hk => sum_congr rfl fun l hl => ?_
  rw [mem_range] at hk hl
  rw [hQ _ hmem l (by dsimp only; omega) k (by dsimp only; omega)]

theorem expect_prev (S : Symmetry) (prev : BackShell) (rp : Rho K) (F : Label → ℕ → ℕ → K) (P : Scalar K)
    (h : List.Forall₂ (IsPrev F) prev rp) :
    expect S rp P = (prev.map fun p => ((mult S.fields p.1 : ℤ) : K) *
      ∑ a ∈ range p.2.kept, ∑ b ∈ range p.2.kept, F p.1 a b * P p.1 b a).sum := by
  induction h with
  | nil => rfl
  | @cons p q ps qs h1 h2 ih =>
    simp only [expect, List.map_cons, List.sum_cons] at ih ⊢
    rw [ih, h1.1, h1.2.2.1]
    congr 2
    exact sum_congr rfl fun a ha => sum_congr rfl fun b hb => by
      rw [h1.2.2.2 a (mem_range.1 ha) b (mem_range.1 hb)]

/-- One step of the sweep of the reduced density matrix. -/
theorem dmStep_expect {S : Symmetry} (hv : RowsValid S) [CharZero K] {prev : BackShell} {cur : Shell K}
    (hL : Linked S prev cur) {rho : Rho K} (hR : Fits rho cur.diag) (P Q : Scalar K) (hQ : Carried S cur.diag P Q)
    (r : Rho K) (hr : dmStep S prev cur.store cur.diag rho = some r) : expect S r P = expect S rho Q := by
  obtain ⟨r', h1, h2⟩ := dmStep_entries hv hL hR
  rw [hr] at h1
  cases h1
  rw [expect_prev S prev r _ P h2, entrySum_expect hv hL hR P Q hQ]

/-- The expectation value in an optional contribution. -/
def optExpect (S : Symmetry) (dd : Option (Rho K)) (Q : Scalar K) : K :=
  match dd with | some d => expect S d Q | none => 0

/-- One step of the sweep of the full density matrix. -/
theorem fdmStep_expect {S : Symmetry} (hv : RowsValid S) [CharZero K] {prev : BackShell} {cur : Shell K}
    (hL : Linked S prev cur) {rho : Rho K} (hR : Fits rho cur.diag) (dd : Option (Rho K))
    (hD : ∀ d, dd = some d → Fits d cur.diag ∧ ∀ p ∈ d, Diagonal p.2) (P Q : Scalar K) (hQ : Carried S cur.diag P Q)
    (r : Rho K) (hr : fdmStep S prev cur.store cur.diag rho dd = some r) :
    expect S r P = expect S rho Q + optExpect S dd Q := by
  obtain ⟨r', h1, h2⟩ := fdmStep_entries hv hL hR dd hD
  rw [hr] at h1
  cases h1
  rw [expect_prev S prev r _ P h2, ← entrySum_expect hv hL hR P Q hQ]
  cases dd with
  | none => simp [Dm.optEntry, optExpect]
  | some d =>
    simp only [Dm.optEntry, optExpect]
    rw [← entrySum_expect hv hL (hD d rfl).1 P Q hQ, ← List.sum_map_add]
    congr 1
    apply List.map_congr_left
    intro p _
    rw [← mul_add, ← sum_add_distrib]
    congr 1
    refine sum_congr rfl fun a _ => ?_
    rw [← sum_add_distrib]
    exact sum_congr rfl fun b _ => by ring

end Verif.Sumrule
