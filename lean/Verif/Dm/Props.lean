import Verif.Dm.Lemmas
import Verif.Symm.Props
import Mathlib.Data.Rat.Star
/-!
# C26: reduced density matrices keep trace, hermiticity and positivity
-/

namespace Verif.Dm
open Verif.Invar Verif.Symm Verif.Mat Finset

variable {K : Type} [Field K] [StarRing K]

/-- One step of the backward sweep from the last step: subspace labels, sizes and
traces of what is produced. -/
def SavedFor (S : Symmetry) (tr : K) (s : Shell K) (r : Rho K) : Prop :=
  r.map Prod.fst = s.store.map Prod.fst ∧
  (∀ p ∈ r, ∃ b, s.store.lookup p.1 = some b ∧ p.2.r = b.kept ∧ p.2.c = b.kept) ∧
  rhoTrace S r = tr

/-- A run as the backward sweep sees it, latest step first: consecutive steps are
linked, and for every stored subspace the eigenvectors of the kept states are
on disk. -/
def History (S : Symmetry) : List (Shell K) → Prop
  | cur :: prev :: rest => Linked S prev.store cur ∧
      (∀ p ∈ prev.store, ∃ E, prev.diag.lookup p.1 = some E ∧ p.2.kept ≤ E.nr) ∧ History S (prev :: rest)
  | _ => True

theorem forall₂_labels {F : Label → ℕ → ℕ → K} {prev : BackShell} {rp : Rho K}
    (h : List.Forall₂ (IsPrev F) prev rp) : rp.map Prod.fst = prev.map Prod.fst := by
  induction h with
  | nil => rfl
  | cons h1 _ ih => simp [h1.1, ih]

theorem forall₂_mem {F : Label → ℕ → ℕ → K} {prev : BackShell} {rp : Rho K}
    (h : List.Forall₂ (IsPrev F) prev rp) : ∀ q ∈ rp, ∃ p ∈ prev, IsPrev F p q := by
  induction h with
  | nil => simp
  | @cons p q ps qs h1 _ ih =>
    intro x hx
    rcases List.mem_cons.1 hx with rfl | hx
    · exact ⟨p, by simp, h1⟩
    · obtain ⟨p', hp', h'⟩ := ih x hx; exact ⟨p', by simp [hp'], h'⟩

theorem savedFor_of_prev {S : Symmetry} {s : Shell K} (hn : (s.store.map Prod.fst).Nodup) {F : Label → ℕ → ℕ → K} {rp : Rho K}
    (h : List.Forall₂ (IsPrev F) s.store rp) (tr : K) (ht : rhoTrace S rp = tr) : SavedFor S tr s rp := by
  refine ⟨forall₂_labels h, fun q hq => ?_, ht⟩
  obtain ⟨p, hp, h1, h2, h3, _⟩ := forall₂_mem h q hq
  exact ⟨p.2, by rw [h1]; exact lookup_of_mem _ hn p hp, h2, h3⟩

theorem fits_of_saved {S : Symmetry} {s : Shell K} (hn : (s.store.map Prod.fst).Nodup) {tr : K} {r : Rho K}
    (h : SavedFor S tr s r) (hs : ∀ p ∈ s.store, ∃ E, s.diag.lookup p.1 = some E ∧ p.2.kept ≤ E.nr) : Fits r s.diag := by
  refine ⟨by rw [h.1]; exact hn, fun p hp => ?_⟩
  obtain ⟨b, hb, h1, h2⟩ := h.2.1 p hp
  obtain ⟨E, hE, hle⟩ := hs _ (mem_of_lookup _ _ _ hb)
  exact ⟨by rw [h1, h2], E, hE, by rw [h2]; exact hle⟩

/-- **C26 (one step).** Stepping the reduced density matrix back by one site
succeeds, produces one matrix per subspace of the previous step with as many
states as were kept there, preserves the trace, and preserves hermiticity. -/
theorem dmStep_trace (S : Symmetry) (hv : RowsValid S) [CharZero K] (prev cur : Shell K)
    (hL : Linked S prev.store cur) (rho : Rho K) (hR : Fits rho cur.diag) :
    ∃ r, dmStep S prev.store cur.store cur.diag rho = some r ∧ SavedFor S (rhoTrace S rho) prev r ∧
      ((∀ p ∈ rho, Hermitian p.2) → ∀ p ∈ r, Hermitian p.2) := by
  obtain ⟨r, h1, h2⟩ := dmStep_entries hv hL hR
  refine ⟨r, h1, savedFor_of_prev hL.prevNodup h2 _ ?_, fun hh q hq => ?_⟩
  · rw [rhoTrace_prev S prev.store r _ h2, entrySum_trace hv hL hR]
  · obtain ⟨p, hp, e1, e2, e3, e4⟩ := forall₂_mem h2 q hq
    refine ⟨by rw [e2, e3], fun i hi j hj => ?_⟩
    rw [e2] at hi hj
    rw [e4 i hi j hj, e4 j hj i hi]
    exact entrySum_hermitian hh p.1 i j

/-- **C26 (one step).** Non-negative density matrices stay non-negative. -/
theorem dmStep_nonneg [PartialOrder K] [StarOrderedRing K] (S : Symmetry) (hv : RowsValid S) (prev cur : Shell K)
    (hL : Linked S prev.store cur) (rho : Rho K) (hR : Fits rho cur.diag)
    (hp : ∀ p ∈ rho, PosSemidef p.2) (r : Rho K) (hr : dmStep S prev.store cur.store cur.diag rho = some r) :
    ∀ p ∈ r, PosSemidef p.2 := by
  obtain ⟨r', h1, h2⟩ := dmStep_entries hv hL hR
  rw [hr] at h1
  cases h1
  intro q hq x
  obtain ⟨p, hpm, e1, e2, e3, e4⟩ := forall₂_mem h2 q hq
  have := entrySum_nonneg hL hR hp p hpm p.2.kept x
  rw [e2]
  simp only [form] at this
  refine le_of_le_of_eq this (sum_congr rfl fun i hi => sum_congr rfl fun j hj => ?_)
  rw [e4 i (mem_range.1 hi) j (mem_range.1 hj)]

/-- **C26.** For every run, the sweep from the last step back to the first one
succeeds and saves one set of matrices per step, all with the trace (weighted by
multiplicities) of the density matrix it was started with, and all hermitian if
that one is. -/
theorem dmSweep_trace (S : Symmetry) (hv : RowsValid S) [CharZero K] (shells : List (Shell K)) (hH : History S shells)
    (rho : Rho K) (hR : ∀ s ∈ shells.head?, Fits rho s.diag) :
    ∃ rs, dmSweep S shells rho = some rs ∧ List.Forall₂ (SavedFor S (rhoTrace S rho)) shells.tail rs ∧
      ((∀ p ∈ rho, Hermitian p.2) → ∀ r ∈ rs, ∀ p ∈ r, Hermitian p.2) := by
  induction shells generalizing rho with
  | nil => exact ⟨[], rfl, .nil, by simp⟩
  | cons cur shells ih =>
    cases shells with
    | nil => exact ⟨[], rfl, .nil, by simp⟩
    | cons prev rest =>
      obtain ⟨hL, hs, hH'⟩ := hH
      obtain ⟨r, h1, h2, h3⟩ := dmStep_trace S hv prev cur hL rho (hR cur (by simp))
      obtain ⟨rs, g1, g2, g3⟩ := ih hH' r (by
        intro s hs'
        simp only [List.head?_cons, Option.mem_def, Option.some.injEq] at hs'
        subst hs'
        exact fits_of_saved hL.prevNodup h2 hs)
      refine ⟨r :: rs, by simp [dmSweep, h1, g1], ?_, fun hh => ?_⟩
      · rw [h2.2.2] at g2
        exact .cons h2 g2
      · intro x hx
        rcases List.mem_cons.1 hx with rfl | hx
        · exact h3 hh
        · exact g3 (h3 hh) x hx

/-- **C26.** If the density matrix at the last step is non-negative, so are all
the reduced ones. -/
theorem dmSweep_nonneg [PartialOrder K] [StarOrderedRing K] (S : Symmetry) (hv : RowsValid S) [CharZero K]
    (shells : List (Shell K)) (hH : History S shells) (rho : Rho K) (hR : ∀ s ∈ shells.head?, Fits rho s.diag)
    (hp : ∀ p ∈ rho, PosSemidef p.2) (rs : List (Rho K)) (hrs : dmSweep S shells rho = some rs) :
    ∀ r ∈ rs, ∀ p ∈ r, PosSemidef p.2 := by
  induction shells generalizing rho rs with
  | nil => simp [dmSweep] at hrs; subst hrs; simp
  | cons cur shells ih =>
    cases shells with
    | nil => simp [dmSweep] at hrs; subst hrs; simp
    | cons prev rest =>
      obtain ⟨hL, hs, hH'⟩ := hH
      obtain ⟨r, h1, h2, _⟩ := dmStep_trace S hv prev cur hL rho (hR cur (by simp))
      have hn := dmStep_nonneg S hv prev cur hL rho (hR cur (by simp)) hp r h1
      have hf : ∀ s ∈ (prev :: rest).head?, Fits r s.diag := by
        intro s hs'
        simp only [List.head?_cons, Option.mem_def, Option.some.injEq] at hs'
        subst hs'
        exact fits_of_saved hL.prevNodup h2 hs
      obtain ⟨rs', g1, _⟩ := dmSweep_trace S hv (prev :: rest) hH' r hf
      simp only [dmSweep, h1, g1, Option.bind_eq_bind, Option.bind_some, Option.pure_def, Option.some.injEq] at hrs
      subst hrs
      intro x hx
      rcases List.mem_cons.1 hx with rfl | hx
      · exact hn
      · exact ih hH' r hf hn rs' g1 x hx

/-- All built-in symmetries meet the hypothesis on the table. -/
theorem builtins_rowsValid : ∀ b ∈ builtins, RowsValid b.sym := by
  intro b hb
  obtain ⟨ms, h⟩ := builtins_decompose b hb
  exact rowsValid_of_decomposes b.sym ms h

/-! ### A concrete case: one impurity level and one site, symmetry QS -/

private def exS : Symmetry := ⟨fields_QS, tab_QS_1ch⟩
private def exPrev : Shell ℚ := ⟨[([-1, 1], ⟨[], 1⟩), ([0, 2], ⟨[], 1⟩), ([1, 1], ⟨[], 1⟩)],
  [([-1, 1], ⟨[], 1⟩), ([0, 2], ⟨[], 1⟩), ([1, 1], ⟨[], 1⟩)]⟩
/-- Rows of a rotation matrix as eigenvectors of `(Q, 2S+1) = (0, 1)`; blocks 0, 2, 3
have one column each. -/
private def exE : Eig ℚ :=
  ⟨[⟨3, 1, fun i _ => [3/5, 4/5, 0].getD i 0⟩, ⟨3, 0, fun _ _ => 0⟩, ⟨3, 1, fun i _ => [-4/5, 3/5, 0].getD i 0⟩,
    ⟨3, 1, fun i _ => [0, 0, 1].getD i 0⟩], 3⟩
private def exCur : Shell ℚ := ⟨[([0, 1], ⟨[1, 0, 1, 1], 2⟩)], [([0, 1], exE)]⟩
private def exRho : Rho ℚ := [([0, 1], ⟨2, 2, fun i j => if i = j then 1/2 else 0⟩)]

private theorem exLinked : Linked exS exPrev.store exCur where
  prevNodup := by decide
  prevLabels := by
    intro p hp
    simp only [exPrev, List.mem_cons, List.not_mem_nil, or_false] at hp
    rcases hp with rfl | rfl | rfl <;> exact ⟨physical_valid (fs := fields_QS) (by decide), by decide⟩
  curLabels := by intro q hq; simp only [exCur, List.mem_singleton] at hq; subst hq; exact ⟨physical_valid (fs := fields_QS) (by decide), by decide⟩
  curNodup := by decide
  eigs := by
    intro q hq
    simp only [exCur, List.mem_singleton] at hq
    subst hq
    refine ⟨⟨[1, 0, 1, 1], 2⟩, by decide, by decide, rfl, ?_, by decide +kernel⟩
    intro i B hB
    match i with
    | 0 | 1 | 2 | 3 => cases hB; exact ⟨rfl, rfl⟩
    | n + 4 => simp [exE] at hB

private theorem exFits : Fits exRho exCur.diag := by
  refine ⟨by decide, fun p hp => ?_⟩
  simp only [exRho, List.mem_singleton] at hp
  subst hp
  exact ⟨rfl, exE, by simp [exCur, List.lookup], by decide⟩

example : RowsValid exS ∧ History exS [exCur, exPrev] ∧ (∀ s ∈ [exCur, exPrev].head?, Fits exRho s.diag) ∧
    rhoTrace exS exRho = 1 ∧
    (dmSweep exS [exCur, exPrev] exRho).map (List.map (List.map fun p => (p.1, p.2.e 0 0)))
      = some [[([-1, 1], 0), ([0, 2], 1/4), ([1, 1], 1/2)]] := by
  refine ⟨rowsValid_of_decomposes _ _ dec_QS_1ch, ⟨exLinked, ?_, trivial⟩, ?_, by decide +kernel, by decide +kernel⟩
  · intro p hp
    simp only [exPrev, List.mem_cons, List.not_mem_nil, or_false] at hp
    rcases hp with rfl | rfl | rfl <;> exact ⟨⟨[], 1⟩, by simp [exPrev, List.lookup], by decide⟩
  · intro s hs
    simp only [List.head?_cons, Option.mem_def, Option.some.injEq] at hs
    subst hs; exact exFits

end Verif.Dm
