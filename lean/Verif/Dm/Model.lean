import Verif.Symm.Model
import Verif.Mat.Model
/-!
# Reduced density matrices (`c++/dmnrg.hpp:160-371`, `c++/store.hpp:100-125`)

`std::map<Invar, …>` is a list of pairs with different labels.  Exact arithmetic
over a field `K` with conjugation.  Failed assertions and exceptions are `none`.
Profiling, log output, the file written for each step (modelled by the list of
results) and the skipping of the calculation by `resume` are not modelled.
-/

namespace Verif.Dm
open Verif.Invar Verif.Symm Verif.Mat

/-- `BackiterSub`, `c++/store.hpp:103-109`: block structure and number of kept
states. -/
structure BackSub where
  rmax : List ℕ
  kept : ℕ
  deriving DecidableEq, Repr

/-- `BackiterSubs`, `c++/store.hpp:111-119`. -/
abbrev BackShell := List (Label × BackSub)

/-- The part of `Eigen` used here: the eigenvectors cut into blocks (`Blocks`,
`c++/eigen.hpp:224-262`) and `getnrstored()`, `c++/eigen.hpp:364`. -/
structure Eig (K : Type) where
  U : List (Mat K)
  nr : ℕ

/-- `DiagInfo` with eigenvectors. -/
abbrev DiagU (K : Type) := List (Label × Eig K)

/-- `DensMatElements`, `c++/operators.hpp:84-86`. -/
abbrev Rho (K : Type) := List (Label × Mat K)

variable {K : Type} [Field K] [StarRing K]

/-- `DensMatElements::trace`, `c++/operators.hpp:88-92` (before taking the real
part). -/
def rhoTrace (S : Symmetry) (ρ : Rho K) : K :=
  (ρ.map fun p => ((mult S.fields p.1 : ℤ) : K) * trace p.2).sum

/-- `cdmI`, `c++/dmnrg.hpp:162-199`. -/
def cdmI (combs i : ℕ) (J : Label) (rhoN : Mat K) (E : Eig K) (rhoNew : Mat K) (cur : BackShell)
    (factor : K) (diagonal : Bool) : Option (Mat K) :=
  if i < combs then
    if rhoN.c = 0 then some rhoNew
    else if rhoNew.c = 0 then some rhoNew
    else do
      let s ← cur.lookup J
      let rm ← s.rmax[i]?
      if rm = 0 then some rhoNew
      else if rm = rhoNew.c ∧ rhoN.c ≤ E.nr then do
        let U0 ← E.U[i]?
        let U ← submatrix U0 0 rhoN.c 0 U0.c
        if diagonal then rotateDiagonal rhoNew factor U rhoN else rotate rhoNew factor U rhoN
      else none
  else none

/-- The lookups before the calls of `cdmI`, `c++/dmnrg.hpp:214-219,320-337`:
nothing is added if the subspace has no density matrix or no eigenvectors. -/
def addFrom (combs : ℕ) (cur : BackShell) (diag : DiagU K) (rho : Rho K) (i : ℕ) (J : Label) (factor : K)
    (diagonal : Bool) (M : Mat K) : Option (Mat K) :=
  match rho.lookup J, diag.lookup J with
  | some ρ, some E => cdmI combs i J ρ E M cur factor diagonal
  | _, _ => some M

/-- `double(Sym->mult(sub)) / double(Sym->mult(I))`. -/
def multRatio (S : Symmetry) (J I : Label) : K := ((mult S.fields J : ℤ) : K) / ((mult S.fields I : ℤ) : K)

/-- `calc_densitymatrix_iterN`, `c++/dmnrg.hpp:203-223`.  `prev` is
`store_all[N-1]`, `cur` is `store_all[N]`. -/
def dmStep (S : Symmetry) (prev cur : BackShell) (diag : DiagU K) (rho : Rho K) : Option (Rho K) :=
  prev.mapM fun p =>
    if p.2.kept = 0 then some (p.1, zero 0 0)
    else do
      let ns ← S.newSubspaces p.1
      let M ← ns.zipIdx.foldlM (fun M x =>
        addFrom S.combs cur diag rho x.2 x.1 (multRatio S x.1 p.1) false M) (zero p.2.kept p.2.kept)
      pure (p.1, M)

/-- The contribution of the discarded sector, `c++/dmnrg.hpp:328-336`
(`none` at the last step). -/
def addDD (combs : ℕ) (cur : BackShell) (diag : DiagU K) (rhoDD : Option (Rho K)) (i : ℕ) (J : Label) (factor : K)
    (M : Mat K) : Option (Mat K) :=
  match rhoDD with
  | some d => addFrom combs cur diag d i J factor true M
  | none => some M

/-- `calc_fulldensitymatrix_iterN`, `c++/dmnrg.hpp:294-342`.  `rhoDD = none` at
the last step. -/
def fdmStep (S : Symmetry) (prev cur : BackShell) (diag : DiagU K) (rho : Rho K) (rhoDD : Option (Rho K)) :
    Option (Rho K) :=
  prev.mapM fun p => do
    let subs ← S.newSubspaces p.1
    if p.2.kept = 0 then pure (p.1, zero 0 0)
    else do
      let M ← (List.range S.combs).foldlM (fun M i => do
        let sub ← subs[i]?
        let coef := multRatio S sub p.1
        let M1 ← addFrom S.combs cur diag rho i sub coef false M
        addDD S.combs cur diag rhoDD i sub coef M1) (zero p.2.kept p.2.kept)
      pure (p.1, M)

/-- What the sweep back needs of one step: `store_all[N]` and the eigenvectors
read from disk. -/
structure Shell (K : Type) where
  store : BackShell
  diag : DiagU K

/-- `calc_densitymatrix`, `c++/dmnrg.hpp:239-263`.  `shells` are the steps
`Nmax-1, …, Ninit` in this order; the result is what is saved for the steps
`Nmax-2, …, Ninit`. -/
def dmSweep (S : Symmetry) : List (Shell K) → Rho K → Option (List (Rho K))
  | cur :: prev :: rest, rho => do
    let r ← dmStep S prev.store cur.store cur.diag rho
    let rs ← dmSweep S (prev :: rest) r
    pure (r :: rs)
  | _, _ => some []

end Verif.Dm
