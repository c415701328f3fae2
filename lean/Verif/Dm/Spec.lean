import Verif.Dm.Model
import Verif.Symm.Count
import Mathlib.Algebra.Order.Star.Basic
/-!
# Specification vocabulary for density matrices
-/

namespace Verif.Dm
open Verif.Invar Verif.Symm Verif.Mat Finset
variable {K : Type} [Field K] [StarRing K]

/-- `ρ` equals its conjugate transpose. -/
def Hermitian (ρ : Mat K) : Prop := ρ.r = ρ.c ∧ ∀ i < ρ.r, ∀ j < ρ.r, ρ.e i j = star (ρ.e j i)

/-- All expectation values of `ρ` are non-negative. -/
def PosSemidef [PartialOrder K] (ρ : Mat K) : Prop :=
  ∀ x : ℕ → K, 0 ≤ ∑ i ∈ range ρ.r, ∑ j ∈ range ρ.r, star (x i) * ρ.e i j * x j

/-- The number of kept states of each subspace. -/
def keptSizes (s : BackShell) : Sizes := s.map fun p => (p.1, p.2.kept)

/-- The eigenvectors of subspace `J` and its block structure are what a
diagonalisation at this step leaves behind: block `i` has one row per computed
state and one column per kept state of the `i`-th ancestor, and the rows
(eigenvectors) are orthonormal. -/
structure EigOK (S : Symmetry) (prev : BackShell) (J : Label) (E : Eig K) (s : BackSub) : Prop where
  dims : subspaceDims S (keptSizes prev) J = some s.rmax
  count : E.U.length = S.combs
  shape : ∀ (i : ℕ) (B : Mat K), E.U[i]? = some B → B.r = E.nr ∧ s.rmax[i]? = some B.c
  ortho : ∀ a < E.nr, ∀ b < E.nr,
    ∑ i ∈ range S.combs, ∑ k ∈ range (E.U.getD i empty).c,
      (E.U.getD i empty).e a k * star ((E.U.getD i empty).e b k) = if a = b then 1 else 0

/-- Two consecutive steps of a run. -/
structure Linked (S : Symmetry) (prev : BackShell) (cur : Shell K) : Prop where
  prevNodup : (prev.map Prod.fst).Nodup
  prevLabels : ∀ p ∈ prev, Valid (types S.fields) p.1 ∧ 0 < mult S.fields p.1
  curLabels : ∀ q ∈ cur.diag, Valid (types S.fields) q.1 ∧ 0 < mult S.fields q.1
  curNodup : (cur.diag.map Prod.fst).Nodup
  eigs : ∀ q ∈ cur.diag, ∃ s, cur.store.lookup q.1 = some s ∧ EigOK S prev q.1 q.2 s

/-- Density matrices that fit the eigenvectors: different labels, square, at most
as many states as there are eigenvectors. -/
def Fits (ρ : Rho K) (diag : DiagU K) : Prop :=
  (ρ.map Prod.fst).Nodup ∧ ∀ p ∈ ρ, p.2.r = p.2.c ∧ ∃ E, diag.lookup p.1 = some E ∧ p.2.c ≤ E.nr

end Verif.Dm
