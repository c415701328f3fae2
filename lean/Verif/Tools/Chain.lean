import Mathlib.Analysis.SpecialFunctions.Sqrt
import Mathlib.Analysis.SpecialFunctions.Pow.Real
import Mathlib.Algebra.BigOperators.Group.Finset.Basic
/-!
# Wilson chain coefficients (`tools/nrgchain/nrgchain.cc`, `c++/tridiag.hpp`)

Exact real arithmetic: the multiple-precision numbers of the program are rounded to
`preccpp` bits, which is not modelled.
-/

namespace Verif.Tools

/-- The vector `u_{n,m}`: components at positive and negative energies, `up` and `um`. -/
structure Wvec where
  p : ℕ → ℝ
  m : ℕ → ℝ

/-- The discretised bath: `mMAX`, `de_pos`, `de_neg`, and the starting vector `du_pos`,
`du_neg`. -/
structure Bath where
  M : ℕ
  ep : ℕ → ℝ
  em : ℕ → ℝ
  u0 : Wvec

/-- How the computation may stop.  `xi2zero` is `exit(1)` after the test of
`nrgchain.cc:444-447`; the others are aborts inside GMP. -/
inductive Stop where
  | xi2zero | sqrtNegative | divZero
deriving DecidableEq

/-- `mpf_sqrt`. -/
noncomputable def mpSqrt (x : ℝ) : Except Stop ℝ := by
  classical exact if x < 0 then .error .sqrtNegative else .ok (Real.sqrt x)

/-- `mpf_div` of every component by the same number, `tools/nrgchain/nrgchain.cc:361-364`. -/
noncomputable def Wvec.div (u : Wvec) (c : ℝ) : Except Stop Wvec := by
  classical exact if c = 0 then .error .divZero else .ok ⟨fun k => u.p k / c, fun k => u.m k / c⟩

/-- `fix_norm`, `tools/nrgchain/nrgchain.cc:345-365`, `c++/tridiag.hpp:27-47`. -/
noncomputable def fixNorm (M : ℕ) (u : Wvec) : Except Stop Wvec := do
  let t ← mpSqrt (∑ k ∈ Finset.range (M + 1), (u.p k * u.p k + u.m k * u.m k))
  u.div t

/-- What is carried from one iteration to the next, and the coefficients produced so far. -/
structure LState where
  prev : Wvec
  prev2 : Wvec
  xiPrev : ℝ
  xi2Prev : ℝ
  xi : List ℝ
  zeta : List ℝ

/-- The start, `tools/nrgchain/nrgchain.cc:393-418`; the vectors of GMP numbers are zero
initialised. -/
noncomputable def lanczosInit (b : Bath) : Except Stop LState := do
  let u ← fixNorm b.M b.u0
  pure ⟨u, ⟨fun _ => 0, fun _ => 0⟩, 0, 0, [], []⟩

/-- One pass of the loop, `tools/nrgchain/nrgchain.cc:420-514`; `c++/tridiag.hpp:105-191` is
the same without the test for zero (then the division by zero aborts).  The values are
recorded before the final multiplication by `bandrescale` and, for `xi`, the optional
division by the energy scale. -/
noncomputable def lanczosStep (b : Bath) (s : LState) : Except Stop LState := by
  classical exact do
  let zeta := ∑ k ∈ Finset.range (b.M + 1), (s.prev.p k * s.prev.p k * b.ep k - s.prev.m k * s.prev.m k * b.em k)
  let xi2 := ∑ k ∈ Finset.range (b.M + 1), (s.prev.p k * s.prev.p k * (b.ep k * b.ep k) + s.prev.m k * s.prev.m k * (b.em k * b.em k))
  let xi2 := xi2 - s.xi2Prev - zeta * zeta
  if xi2 = 0 then .error .xi2zero else do
  let xi ← mpSqrt xi2
  let u ← Wvec.div ⟨fun k => (b.ep k - zeta) * s.prev.p k - s.xiPrev * s.prev2.p k,
    fun k => (- b.em k - zeta) * s.prev.m k - s.xiPrev * s.prev2.m k⟩ xi
  let u ← fixNorm b.M u
  let xi := ∑ k ∈ Finset.range (b.M + 1), (u.p k * s.prev.p k * b.ep k - u.m k * s.prev.m k * b.em k)
  pure ⟨u, s.prev, xi, xi * xi, s.xi ++ [xi], s.zeta ++ [zeta]⟩

/-- The state after `n` passes, `tools/nrgchain/nrgchain.cc:420`. -/
noncomputable def lanczosAt (b : Bath) : ℕ → Except Stop LState
  | 0 => lanczosInit b
  | n + 1 => do let s ← lanczosAt b n; lanczosStep b s

/-! ### The star Hamiltonian coefficients -/

/-- `eps_pos`, `eps_neg`, `tools/nrgchain/nrgchain.cc:73-81`, with the function `g` (one when
`adapt` is off). -/
noncomputable def epsMesh (Lambda : ℝ) (g : ℝ → ℝ) (x : ℝ) : ℝ := by
  classical exact if x ≤ 2 then 1 else g x * Lambda ^ (2 - x)

/-- A double that may be NaN (`none`): the square root of a negative number and division by
zero.  (A quotient `c/0` with `c ≠ 0` is infinite rather than NaN; both are rendered as
`none`.) -/
noncomputable def dSqrt (x : ℝ) : Option ℝ := by classical exact if x < 0 then none else some (Real.sqrt x)
@[inherit_doc dSqrt] noncomputable def dDiv (x y : Option ℝ) : Option ℝ := by
  classical exact do let a ← x; let b ← y; if b = 0 then none else some (a / b)

/-- The interval weights and couplings computed by `tables`, `tools/nrgchain/nrgchain.cc:251-306`. -/
structure Star where
  theta : ℝ
  df : ℕ → ℝ × ℝ
  du0 : ℕ → Option ℝ × Option ℝ
  checksum : Option ℝ
  /-- The test `abs(1 - checksum) > 1e-10`; false when the checksum is NaN. -/
  rejected : Prop
  du : ℕ → Option ℝ × Option ℝ

/-- `tables`, `tools/nrgchain/nrgchain.cc:251-306`.  `Gp`, `Gn` are the integrals of the
hybridisation functions (`intrho_pos`, `intrho_neg`; see `intEval_integral`), `ep`, `en` the
mesh functions. -/
noncomputable def starTables (Gp Gn ep en : ℝ → ℝ) (z : ℝ) (M : ℕ) : Star :=
  let theta := (Gp (ep (z + 1)) - Gp (ep (z + (M : ℝ) + 2))) + (Gn (en (z + 1)) - Gn (en (z + (M : ℝ) + 2)))
  let df := fun m : ℕ => (Gp (ep (z + m + 1)) - Gp (ep (z + m + 2)), Gn (en (z + m + 1)) - Gn (en (z + m + 2)))
  let du0 := fun m : ℕ => (dDiv (dSqrt (df m).1) (dSqrt theta), dDiv (dSqrt (df m).2) (dSqrt theta))
  let checksum := (List.range (M + 1)).foldl
    (fun (acc : Option ℝ) m => do let c ← acc; let a ← (du0 m).1; let b ← (du0 m).2; pure (c + (a * a + b * b))) (some 0)
  { theta := theta, df := df, du0 := du0, checksum := checksum,
    rejected := ∃ c, checksum = some c ∧ |1 - c| > 1 / 10 ^ 10,
    du := fun m => (dDiv (du0 m).1 (checksum.bind dSqrt), dDiv (du0 m).2 (checksum.bind dSqrt)) }

end Verif.Tools
