import Verif.Tools.LinIntProps
import Mathlib.Topology.LocallyFinite
/-!
# The interpolant of a table is continuous
-/

namespace Verif.Tools
open Set

theorem interp_continuous {t : Tab ℝ} (h : Good t) {g : ℝ → ℝ} (hg : ∀ x, IsInterp t x (g x)) : Continuous g := by
  have hl := h.len
  let S : Option (Option (Fin (t.length - 1))) → Set ℝ := fun o =>
    match o with
    | none => Iic (t.x 0)
    | some none => Ici (t.x (t.length - 1))
    | some (some i) => Icc (t.x i) (t.x (i + 1))
  refine LocallyFinite.continuous (f := S) (locallyFinite_of_finite _) ?_ ?_ ?_
  · rw [eq_univ_iff_forall]
    intro x
    rw [mem_iUnion]
    rcases hg x with ⟨h1, _⟩ | ⟨h1, _⟩ | ⟨i, hi, h1, h2, _⟩
    · exact ⟨none, h1⟩
    · exact ⟨some none, h1⟩
    · exact ⟨some (some ⟨i, by omega⟩), h1, h2⟩
  · rintro (_ | _ | i)
    · exact isClosed_Iic
    · exact isClosed_Ici
    · exact isClosed_Icc
  · rintro (_ | _ | i)
    · exact continuousOn_const.congr fun y (hy : y ≤ t.x 0) => (hg y).unique h (Or.inl ⟨hy, rfl⟩)
    · exact continuousOn_const.congr fun y (hy : t.x (t.length - 1) ≤ y) => (hg y).unique h (Or.inr (Or.inl ⟨hy, rfl⟩))
    · have hi : (i : ℕ) + 1 < t.length := by have := i.2; omega
      refine ContinuousOn.congr ?_ fun y (hy : y ∈ Icc (t.x i) (t.x (i + 1))) => interp_piece h hg hi hy.1 hy.2
      fun_prop

end Verif.Tools
