import Verif.Spectral.Patch
import Verif.Mat.Model
import Mathlib.Analysis.SpecialFunctions.Exp
import Mathlib.Analysis.Complex.Exponential
/-!
# Spectral-function algorithms
(`c++/algo_FT.hpp:15-60`, `c++/algo_DMNRG.hpp:17-67`, `c++/algo_FDM.hpp`, `c++/algo_CFS.hpp`)

One call of `calc` for one pair of subspaces `(Ij, Ii)` (also called `(I1, Ip)`):
the result is the list of delta peaks handed to the bins, `(energy, factor *
weight)`, in the order of the calls of `add`.  `none`: a failed assertion or an
access outside a matrix.
-/

namespace Verif.Spectral
open Verif.Mat Finset

/-- The part of `Eigen` used by the algorithms: `getnrall()`, `getnrkept()`, `last`,
the absolute energies with respect to the ground state of the whole run
(`abs_G`) and of the step (`abs_zero`), `c++/eigen.hpp:352-375`. -/
structure EigD where
  nrall : ℕ
  nrkept : ℕ
  last : Bool
  absG : ℕ → ℝ
  absZero : ℕ → ℝ

/-- `boundary()`, `c++/eigen.hpp:360`. -/
def EigD.boundary (d : EigD) : ℕ := if d.last then 0 else d.nrkept
/-- `Krange()`, `c++/eigen.hpp:373`. -/
def EigD.K (d : EigD) : List ℕ := List.range' 0 d.boundary
/-- `Drange()`, `c++/eigen.hpp:372`. -/
def EigD.D (d : EigD) : List ℕ := List.range' d.boundary (d.nrall - d.boundary)
/-- `kept()`, `c++/eigen.hpp:367`. -/
def EigD.kept (d : EigD) : List ℕ := List.range d.nrkept
/-- `discarded()`, `c++/eigen.hpp:368`. -/
def EigD.discarded (d : EigD) : List ℕ := List.range' d.nrkept (d.nrall - d.nrkept)

/-- `op(j, i)`: an access outside the matrix is an assertion failure in Eigen. -/
def entry (A : Mat ℂ) (j i : ℕ) : Option ℂ := if j < A.r ∧ i < A.c then some (A.e j i) else none

/-- Two nested loops, the outer over the states `j` and the inner over `i`. -/
def loop2 (js is : List ℕ) : List (ℕ × ℕ) := js.flatMap fun j => is.map fun i => (j, i)

/-- The arguments of `calc`. -/
structure Calc where
  di : EigD
  dj : EigD
  op1 : Mat ℂ
  op2 : Mat ℂ
  factor : ℂ
  rhoI : Mat ℂ
  rhoJ : Mat ℂ
  gt : GfType
  T : ℝ
  wnf : ℝ

/-- `sign`. -/
def Calc.sign (c : Calc) : ℂ := ((gfSign c.gt : ℤ) : ℂ)

/-- `exp(-E / T)`. -/
noncomputable def boltz (E T : ℝ) : ℂ := ((Real.exp (-E / T) : ℝ) : ℂ)

/-- `absGj[j] - absGi[i]`. -/
def Calc.energyG (c : Calc) (j i : ℕ) : ℝ := c.dj.absG j - c.di.absG i

/-- `add_exp_weight` in `Algo_FDMls`, `c++/algo_FDM.hpp:41-43`. -/
noncomputable def lsExp (c : Calc) (x : ℕ × ℕ) : Option (ℝ × ℂ) := do
  let a ← entry c.op1 x.1 x.2
  let b ← entry c.op2 x.1 x.2
  pure (c.energyG x.1 x.2, c.factor * (star a * b * (-c.sign * c.wnf) * boltz (c.dj.absG x.1) c.T))

/-- `add_rho_weight` in `Algo_FDMls`, `c++/algo_FDM.hpp:44-46`. -/
noncomputable def lsRho (c : Calc) (rho_op2 : Mat ℂ) (x : ℕ × ℕ) : Option (ℝ × ℂ) := do
  let a ← entry c.op1 x.1 x.2
  let b ← entry rho_op2 x.1 x.2
  pure (c.energyG x.1 x.2, c.factor * (star a * b * -c.sign))

/-- `Algo_FDMls::calc`, `c++/algo_FDM.hpp:31-56`. -/
noncomputable def fdmLs (c : Calc) : Option (List (ℝ × ℂ)) := do
  let rho_op2 ← prodFit c.rhoJ c.op2
  let p1 ← (loop2 c.dj.D c.di.D).mapM (lsExp c)
  let p2 ← (loop2 c.dj.K c.di.D).mapM (lsRho c rho_op2)
  let p3 ← (loop2 c.dj.D c.di.K).mapM (lsExp c)
  pure (p1 ++ p2 ++ p3)

/-- `add_exp_weight` in `Algo_FDMgt`, `c++/algo_FDM.hpp:90-92`. -/
noncomputable def gtExp (c : Calc) (x : ℕ × ℕ) : Option (ℝ × ℂ) := do
  let a ← entry c.op1 x.1 x.2
  let b ← entry c.op2 x.1 x.2
  pure (c.energyG x.1 x.2, c.factor * (star a * b * c.wnf * boltz (c.di.absG x.2) c.T))

/-- `add_rho_weight` in `Algo_FDMgt`, `c++/algo_FDM.hpp:93-95`. -/
noncomputable def gtRho (c : Calc) (op2_rho : Mat ℂ) (x : ℕ × ℕ) : Option (ℝ × ℂ) := do
  let a ← entry c.op1 x.1 x.2
  let b ← entry op2_rho x.1 x.2
  pure (c.energyG x.1 x.2, c.factor * (star a * b))

/-- `Algo_FDMgt::calc`, `c++/algo_FDM.hpp:80-105`. -/
noncomputable def fdmGt (c : Calc) : Option (List (ℝ × ℂ)) := do
  let op2_rho ← prodFit c.op2 c.rhoI
  let p1 ← (loop2 c.dj.D c.di.D).mapM (gtExp c)
  let p2 ← (loop2 c.dj.K c.di.D).mapM (gtExp c)
  let p3 ← (loop2 c.dj.D c.di.K).mapM (gtRho c op2_rho)
  pure (p1 ++ p2 ++ p3)

/-- One pass of the three loops of `Algo_FDM::calc`: what is added to `gt_cb` and
to `ls_cb`, `c++/algo_FDM.hpp:143-155,161-167,169-175`. -/
noncomputable def fdmBoth (c : Calc) (gtw lsw : ℕ × ℕ → Option ℂ) (x : ℕ × ℕ) : Option ((ℝ × ℂ) × (ℝ × ℂ)) := do
  let g ← gtw x
  let l ← lsw x
  pure ((c.energyG x.1 x.2, c.factor * g), (c.energyG x.1 x.2, c.factor * l))

/-- The four weights in `Algo_FDM::calc`, `c++/algo_FDM.hpp:147,148,151,154`. -/
noncomputable def wGtExp (c : Calc) (x : ℕ × ℕ) : Option ℂ := do
  let a ← entry c.op1 x.1 x.2
  let b ← entry c.op2 x.1 x.2
  pure (star a * b * c.wnf * boltz (c.di.absG x.2) c.T)
@[inherit_doc wGtExp] noncomputable def wLsExp (c : Calc) (x : ℕ × ℕ) : Option ℂ := do
  let a ← entry c.op1 x.1 x.2
  let b ← entry c.op2 x.1 x.2
  pure (star a * b * -c.sign * c.wnf * boltz (c.dj.absG x.1) c.T)
@[inherit_doc wGtExp] noncomputable def wLsRho (c : Calc) (rho_op2 : Mat ℂ) (x : ℕ × ℕ) : Option ℂ := do
  let a ← entry c.op1 x.1 x.2
  let b ← entry rho_op2 x.1 x.2
  pure (star a * b * -c.sign)
@[inherit_doc wGtExp] noncomputable def wGtRho (c : Calc) (op2_rho : Mat ℂ) (x : ℕ × ℕ) : Option ℂ := do
  let a ← entry c.op1 x.1 x.2
  let b ← entry op2_rho x.1 x.2
  pure (star a * b)

/-- `Algo_FDM::calc`, `c++/algo_FDM.hpp:128-176`: the peaks given to the two
accumulators. -/
noncomputable def fdm (c : Calc) : Option (List (ℝ × ℂ) × List (ℝ × ℂ)) := do
  let rho_op2 ← prodFit c.rhoJ c.op2
  let op2_rho ← prodFit c.op2 c.rhoI
  let p1 ← (loop2 c.dj.D c.di.D).mapM (fdmBoth c (wGtExp c) (wLsExp c))
  let p2 ← (loop2 c.dj.K c.di.D).mapM (fdmBoth c (wGtExp c) (wLsRho c rho_op2))
  let p3 ← (loop2 c.dj.D c.di.K).mapM (fdmBoth c (wGtRho c op2_rho) (wLsExp c))
  pure ((p1 ++ p2 ++ p3).map Prod.fst, (p1 ++ p2 ++ p3).map Prod.snd)

/-- The value of `term1`, `term2`, `term3` of `Algo_FDMmats` at frequency `n`,
`c++/algo_FDM.hpp:226-231,241-243,253-255`; `none` is a division by zero.
`protect`: the special case of `term1`; `tol` is `WEIGHT_TOL`. -/
noncomputable def matsTerm (c : Calc) (tol : ℝ) (protect : Bool) (n : ℕ) (energy : ℝ) (wA wB : ℂ) : Option ℂ := by
  classical exact
    if protect ∧ ¬ (c.gt = .fermionic ∨ n > 0 ∨ |energy| > tol) then some (-wA / c.T)
    else
      let den : ℂ := (ww n c.gt c.T : ℂ) * Complex.I - energy
      if den = 0 then none else some ((wA + wB) / den)

/-- What `Algo_FDMmats::calc` adds at frequency `n`, `c++/algo_FDM.hpp:201-292`. -/
noncomputable def fdmMats (c : Calc) (tol : ℝ) (n : ℕ) : Option ℂ := do
  let rho_op2 ← prodFit c.rhoJ c.op2
  let op2_rho ← prodFit c.op2 c.rhoI
  let term := fun (protect : Bool) (wA wB : ℕ × ℕ → Option ℂ) (x : ℕ × ℕ) => do
    let a ← wA x
    let b ← wB x
    let t ← matsTerm c tol protect n (c.energyG x.1 x.2) a b
    pure (t * c.factor)
  let p1 ← (loop2 c.dj.D c.di.D).mapM (term true (wGtExp c) (wLsExp c))
  let p2 ← (loop2 c.dj.K c.di.D).mapM (term false (wGtExp c) (wLsRho c rho_op2))
  let p3 ← (loop2 c.dj.D c.di.K).mapM (term false (wGtRho c op2_rho) (wLsExp c))
  pure (p1 ++ p2 ++ p3).sum

/-- `E1 - Ep` with `abs_zero`. -/
def Calc.energyZ (c : Calc) (j i : ℕ) : ℝ := c.dj.absZero j - c.di.absZero i

/-- `Algo_CFSls::calc`, `c++/algo_CFS.hpp:28-56`. -/
noncomputable def cfsLs (c : Calc) (last : Bool) (Z : ℝ) : Option (List (ℝ × ℂ)) :=
  if last then
    (loop2 c.dj.kept c.di.kept).mapM fun x => do
      let a ← entry c.op1 x.1 x.2
      let b ← entry c.op2 x.1 x.2
      pure (c.energyZ x.1 x.2, c.factor * (star a * b * boltz (c.dj.absZero x.1) c.T * -c.sign / Z))
  else do
    let op2_rho ← prodFitLeft c.op2 c.rhoI
    (loop2 c.dj.discarded c.di.kept).mapM fun x => do
      let a ← entry c.op1 x.1 x.2
      let b ← entry op2_rho x.1 x.2
      pure (c.energyZ x.1 x.2, c.factor * (star a * b * -c.sign))

/-- `Algo_CFSgt::calc`, `c++/algo_CFS.hpp:80-108`. -/
noncomputable def cfsGt (c : Calc) (last : Bool) (Z : ℝ) : Option (List (ℝ × ℂ)) :=
  if last then
    (loop2 c.dj.kept c.di.kept).mapM fun x => do
      let a ← entry c.op1 x.1 x.2
      let b ← entry c.op2 x.1 x.2
      pure (c.energyZ x.1 x.2, c.factor * (star a * b * boltz (c.di.absZero x.2) c.T / Z))
  else do
    let op1_rho ← prodAdjFitLeft c.op1 c.rhoJ
    (loop2 c.dj.kept c.di.discarded).mapM fun x => do
      let a ← entry op1_rho x.2 x.1
      let b ← entry c.op2 x.1 x.2
      pure (c.energyZ x.1 x.2, c.factor * (a * b))

/-- `Algo_CFS::calc`, `c++/algo_CFS.hpp:130-135`. -/
noncomputable def cfs (c : Calc) (last : Bool) (Z : ℝ) : Option (List (ℝ × ℂ) × List (ℝ × ℂ)) := do
  let g ← cfsGt c last Z
  let l ← cfsLs c last Z
  pure (g, l)

/-- `Algo_FT::calc`, `c++/algo_FT.hpp:28-44`. -/
noncomputable def ft (c : Calc) (Z : ℝ) : Option (List (ℝ × ℂ)) :=
  (loop2 c.dj.kept c.di.kept).mapM fun x => do
    let a ← entry c.op1 x.1 x.2
    let b ← entry c.op2 x.1 x.2
    pure (c.energyZ x.1 x.2,
      c.factor * (star a * b * ((-c.sign * boltz (c.dj.absZero x.1) c.T + boltz (c.di.absZero x.2) c.T) / Z)))

/-- `Algo_DMNRG::calc`, `c++/algo_DMNRG.hpp:30-61`. -/
noncomputable def dmnrg (c : Calc) (Emin Emax : ℝ) : Option (List (ℝ × ℂ)) :=
  let nI := c.di.nrkept
  let nJ := c.dj.nrkept
  if nI = 0 ∨ nJ = 0 then some []
  else do
    let op2k ← submatrix c.op2 0 nJ 0 nI
    let op1k ← submatrix c.op1 0 nJ 0 nI
    let rhoIk ← submatrix c.rhoI 0 nI 0 nI
    let rhoJk ← submatrix c.rhoJ 0 nJ 0 nJ
    let sumA : Mat ℂ := ⟨nJ, nI, fun j m => ∑ k ∈ range nI, op2k.e j k * rhoIk.e m k⟩
    let sumB : Mat ℂ := ⟨nJ, nI, fun j m => ∑ k ∈ range nJ, rhoJk.e j k * star (op1k.e k m)⟩
    pure (((loop2 c.dj.kept c.di.kept).filter fun x =>
        decide (¬ (|c.energyZ x.1 x.2| < Emin ∨ |c.energyZ x.1 x.2| > Emax))).map fun x =>
      (c.energyZ x.1 x.2, c.factor *
        (sumA.e x.1 x.2 * star (op1k.e x.1 x.2) + -c.sign * (sumB.e x.1 x.2 * op2k.e x.1 x.2))))

/-- The states of the accumulators after one step: `begin`, the calls of `calc`
for all pairs of subspaces (`gt` and `ls` peaks), and `end` for `Algo_FDM` or
`Algo_CFS` (`c++/algo_FDM.hpp:124-127,177-182`, `c++/algo_CFS.hpp:126-141`). -/
noncomputable def stepBoth (g : Grid) (tot : Chain) (gt ls : List (ℝ × ℂ)) : Option Chain := do
  let t ← mergeCFS tot (gt.foldl (fun c p => c.add g p.1 p.2) (Chain.new g))
  mergeCFS t (ls.foldl (fun c p => c.add g p.1 p.2) (Chain.new g))

/-- The same for `Algo_FDMgt`, `Algo_FDMls`, `Algo_CFSgt`, `Algo_CFSls`
(`c++/algo_FDM.hpp:30,57-60`). -/
noncomputable def stepOne (g : Grid) (tot : Chain) (peaks : List (ℝ × ℂ)) : Option Chain :=
  mergeCFS tot (peaks.foldl (fun c p => c.add g p.1 p.2) (Chain.new g))

end Verif.Spectral
