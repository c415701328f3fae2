import Verif.Dm.Model
import Verif.Subspaces.Model
/-!
# Recalculation of operators in the new basis (`c++/recalc.hpp`) and the
interface to the eigensolvers (`c++/diag.hpp`)

Failed assertions and exceptions are `none`.  Not modelled: the CUDA paths, log
output, the bug trap on 1000000 states, and the finiteness checks on factors.
-/

namespace Verif.Ops
open Verif.Invar Verif.Symm Verif.Mat Verif.Dm Verif.Subspaces
variable {K : Type} [Field K] [StarRing K]

/-- `split_in_blocks_Eigen`, `c++/recalc.hpp:18-36`.  `V` holds the eigenvectors
in its rows, `V.c` is `getdim()`, `nr` is `getnrstored()`, `d` are the sizes of
the blocks. -/
def splitInBlocks (V : Mat K) (nr : ℕ) (d : Dims) : Option (Eig K) :=
  if 0 < nr ∧ nr ≤ V.c then do
    let U ← (List.range d.length).mapM fun b => do
      let p ← part d b
      submatrix V 0 nr p.1 p.2
    pure ⟨U, nr⟩
  else none

/-- `Blocks::operator()`, `c++/eigen.hpp:236-237`: 1-based access. -/
def blockAt (E : Eig K) (i : ℕ) : Option (Mat K) := if i = 0 then none else E.U[i - 1]?

/-- `Eigen::truncate_perform` with `Blocks::truncate`, `c++/eigen.hpp:244-249,
386-389`: only the first `nr` rows of every block are left. -/
def truncateRows (E : Eig K) (nr : ℕ) : Option (Eig K) := do
  let U ← E.U.mapM fun B => if nr ≤ B.r then some (⟨nr, B.c, B.e⟩ : Mat K) else none
  pure ⟨U, nr⟩

/-- `Recalc`, `c++/symmetry.hpp:48-55`: a line of a recalculation table. -/
structure Recalc (K : Type) where
  i1 : ℕ
  ip : ℕ
  IN1 : Label
  INp : Label
  factor : K

/-- `MatrixElements`, `c++/operators.hpp:28`: matrices by pairs of labels. -/
abbrev Elements (K : Type) := List ((Label × Label) × Mat K)

/-- The body of the loop over the table, `c++/recalc.hpp:157-174`. -/
def recalcLine (S : Symmetry) (E1 Ep : Eig K) (d1 dp : Dims) (cold : Elements K) (I1 Ip : Label) (cn : Mat K)
    (t : Recalc K) : Option (Mat K) :=
  if 1 ≤ t.i1 ∧ t.i1 ≤ S.combs ∧ 1 ≤ t.ip ∧ t.ip ≤ S.combs then
    if (!allowed S.fields t.IN1 || !allowed S.fields t.INp) = true then some cn
    else if some t.IN1 = S.ancestor I1 (t.i1 - 1) ∧ some t.INp = S.ancestor Ip (t.ip - 1) then do
      let rmax1 ← rmax d1 (t.i1 - 1)
      let rmaxp ← rmax dp (t.ip - 1)
      if rmax1 = 0 ∨ rmaxp = 0 then some cn
      else match cold.lookup (t.IN1, t.INp) with
        | none => some cn
        | some O => do
          let U1 ← blockAt E1 t.i1
          let Up ← blockAt Ep t.ip
          transform cn t.factor U1 O Up
    else none
  else none

/-- `recalc_general`, `c++/recalc.hpp:118-178`.  The outer `none` is a failure,
the inner one the empty result when the triangle inequality fails. -/
def recalcGeneral (S : Symmetry) (diag : DiagU K) (sub : List (Label × Dims)) (cold : Elements K) (I1 Ip : Label)
    (table : List (Recalc K)) (Iop : Label) : Option (Option (Mat K)) :=
  if triangle S.fields I1 Ip Iop = false then some none
  else do
    let E1 ← diag.lookup I1
    let Ep ← diag.lookup Ip
    let d1 ← sub.lookup I1
    let dp ← sub.lookup Ip
    if E1.nr = 0 ∨ Ep.nr = 0 then some (some (zero E1.nr Ep.nr))
    else do
      let cn ← table.foldlM (recalcLine S E1 Ep d1 dp cold I1 Ip) (zero E1.nr Ep.nr)
      pure (some cn)

/-- The table built in `recalc_singlet` for parity 1, `c++/symmetry.hpp:204-212`. -/
def singletTable (S : Symmetry) (I : Label) : Option (List (Recalc K)) :=
  (List.range S.combs).mapM fun i => do
    let a ← S.ancestor I i
    pure ⟨i + 1, i + 1, a, a, 1⟩

/-- One subspace of `recalc_singlet`, `c++/symmetry.hpp:203-216` (parity 1;
parity -1 always throws, `Verif.Invar`). -/
def recalcSinglet1 (S : Symmetry) (diag : DiagU K) (sub : List (Label × Dims)) (nold : Elements K) (singlet I : Label) :
    Option (Option (Mat K)) := do
  let t ← singletTable S I
  recalcGeneral S diag sub nold I I t singlet

/-- `Recalc_f`, `c++/symmetry.hpp:40-46`. -/
structure RecalcF (K : Type) where
  i1 : ℕ
  ip : ℕ
  factor : K

/-- The loop of `recalc_f`, `c++/recalc.hpp:70-112` (with `recalc_f_coupled`
true). -/
def recalcF (diag : DiagU K) (I1 Ip : Label) (table : List (RecalcF K)) : Option (Mat K) := do
  let E1 ← diag.lookup I1
  let Ep ← diag.lookup Ip
  table.foldlM (fun f t => do
    let U1 ← blockAt E1 t.i1
    let Up ← blockAt Ep t.ip
    product f t.factor U1 Up) (zero E1.nr Ep.nr)

/-- A loop of `recalc1_global` calls, `c++/recalc.hpp:181-191`, on one subspace. -/
def recalcGlobal (E : Eig K) (table : List (RecalcF K)) (m : Mat K) : Option (Mat K) :=
  table.foldlM (fun f t => do
    let U1 ← blockAt E t.i1
    let Up ← blockAt E t.ip
    product f t.factor U1 Up) m

end Verif.Ops
