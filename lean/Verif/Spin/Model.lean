import Mathlib.Data.Rat.Defs
import Mathlib.Algebra.Order.Ring.Rat
import Verif.Symm.Classes
/-!
# Degeneracy factors of spectral functions and spin moments
(`c++/symmetry/sym-*-impl.hpp`, `c++/symmetry.hpp:324-335`, `c++/invar.hpp:23-25`,
`c++/misc.hpp:72-79`)

`double` arithmetic is exact rational arithmetic.  A failed `my_assert` or an
exception is `none`.
-/

namespace Verif.Spin
open Verif.Invar (Label)
open Verif.Symm

/-- `S`, `ISO`, `SZ` (the three functions have the same body),
`c++/invar.hpp:23-25`. -/
def S (ss : Int) : ℚ := ((ss : ℚ) - 1) / 2

/-- `Invar::get`: the quantum number with the given name; throws if there is
none, `c++/invar.hpp:129-135`.  (Polymorphic so that the specification can use it
on the components of a multiplet.) -/
def get {α : Type} : List Field → List α → String → Option α
  | f :: fs, a :: as, n => if f.name = n then some a else get fs as n
  | _, _, _ => none

/-- `my_assert`. -/
def check (b : Bool) : Option Unit := if b then some () else none

/-- `check_abs_diff`, `c++/symmetry.hpp:325-329`. -/
def checkAbsDiff (fs : List Field) (Ip I1 : Label) (what : String) (diff : Int) : Option Unit := do
  let a ← get fs Ip what
  let b ← get fs I1 what
  check (decide ((b - a).natAbs = diff))

/-- `check_diff`, `c++/symmetry.hpp:331-335`. -/
def checkDiff (fs : List Field) (Ip I1 : Label) (what : String) (diff : Int) : Option Unit := do
  let a ← get fs Ip what
  let b ← get fs I1 what
  check (decide (b - a = diff))

/-- `switch3`, `c++/misc.hpp:72-79`. -/
def switch3 (x0 x1 : Int) (y1 : ℚ) (x2 : Int) (y2 : ℚ) (x3 : Int) (y3 : ℚ) : Option ℚ :=
  if x0 = x1 then some y1 else if x0 = x2 then some y2 else if x0 = x3 then some y3 else none

/-- The expression `ss1 == ssp + 1 ? S(ssp) + 1.0 : S(ssp)` used for every
doublet operator, e.g. `sym-QS-impl.hpp:69`. -/
def doublet (ssp ss1 : Int) : ℚ := if ss1 = ssp + 1 then S ssp + 1 else S ssp

/-- `my_assert(std::abs(ss1 - ssp) == 1)` followed by `doublet`, e.g.
`sym-QS-impl.hpp:68-69`. -/
def doubletChecked (ssp ss1 : Int) : Option ℚ := do
  check (decide ((ss1 - ssp).natAbs = 1))
  pure (doublet ssp ss1)

/-- The assertion and `switch3` call used for every triplet operator, e.g.
`sym-QS-impl.hpp:60-61`. -/
def triplet (ssp ss1 : Int) : Option ℚ := do
  check (decide ((ss1 - ssp).natAbs = 2) || decide (ss1 = ssp))
  switch3 ss1 (ssp + 2) (1 + ((ssp : ℚ) - 1) / 3) ssp ((ssp : ℚ) / 3) (ssp - 2) ((-2 + (ssp : ℚ)) / 3)

/-- `specdens_factor`, `sym-QS-impl.hpp:64-70`, `sym-QSTZ-impl.hpp:49-55`. -/
def sdQS (fs : List Field) (Ip I1 : Label) : Option ℚ := do
  checkDiff fs Ip I1 "Q" 1
  doubletChecked (← get fs Ip "SS") (← get fs I1 "SS")

/-- `dynamicsusceptibility_factor`, `sym-QS-impl.hpp:56-62`,
`sym-QSLR-impl.hpp:39-45`. -/
def dsQS (fs : List Field) (Ip I1 : Label) : Option ℚ := do
  checkDiff fs Ip I1 "Q" 0
  triplet (← get fs Ip "SS") (← get fs I1 "SS")

/-- `specdens_factor`, `sym-QSC3-impl.hpp:48-54`. -/
def sdQSC3 (Ip I1 : Label) : Option ℚ := do
  checkDiff fields_QSC3 Ip I1 "Q" 1
  checkDiff fields_QSC3 Ip I1 "P" 0
  pure (doublet (← get fields_QSC3 Ip "SS") (← get fields_QSC3 I1 "SS"))

/-- `dynamicsusceptibility_factor`, `sym-QSC3-impl.hpp:39-46`. -/
def dsQSC3 (Ip I1 : Label) : Option ℚ := do
  checkDiff fields_QSC3 Ip I1 "Q" 0
  checkDiff fields_QSC3 Ip I1 "P" 0
  triplet (← get fields_QSC3 Ip "SS") (← get fields_QSC3 I1 "SS")

/-- `specdens_factor`, `sym-QSLR-impl.hpp:47-52`, `sym-SPSU2LR-impl.hpp:42-47`. -/
def sdQSLR (fs : List Field) (Ip I1 : Label) : Option ℚ := do
  checkDiff fs Ip I1 "Q" 1
  pure (doublet (← get fs Ip "SS") (← get fs I1 "SS"))

/-- `specdens_factor`, `sym-QST-impl.hpp:65-83`. -/
def sdQST (Ip I1 : Label) : Option ℚ := do
  checkDiff fields_QST Ip I1 "Q" 1
  let spinfactor ← doubletChecked (← get fields_QST Ip "SS") (← get fields_QST I1 "SS")
  let ttp := 2 * (← get fields_QST Ip "T") + 1
  let tt1 := 2 * (← get fields_QST I1 "T") + 1
  let angmomfactor ← if tt1 = 1 ∧ ttp = 1 then some 0 else triplet ttp tt1
  pure (spinfactor * angmomfactor)

/-- `dynamicsusceptibility_factor`, `sym-QST-impl.hpp:43-50`. -/
def dsQST (Ip I1 : Label) : Option ℚ := do
  checkDiff fields_QST Ip I1 "Q" 0
  checkDiff fields_QST Ip I1 "T" 0
  triplet (← get fields_QST Ip "SS") (← get fields_QST I1 "SS")

/-- `dynamic_orb_susceptibility_factor`, `sym-QST-impl.hpp:52-61`. -/
def orbQST (Ip I1 : Label) : Option ℚ := do
  checkDiff fields_QST Ip I1 "Q" 0
  checkDiff fields_QST Ip I1 "SS" 0
  triplet (2 * (← get fields_QST Ip "T") + 1) (2 * (← get fields_QST I1 "T") + 1)

/-- `dynamicsusceptibility_factor`, `sym-QSTZ-impl.hpp:39-46`. -/
def dsQSTZ (Ip I1 : Label) : Option ℚ := do
  checkDiff fields_QSTZ Ip I1 "Q" 0
  checkDiff fields_QSTZ Ip I1 "TZ" 0
  triplet (← get fields_QSTZ Ip "SS") (← get fields_QSTZ I1 "SS")

/-- `specdens_factor`, `sym-QJ-impl.hpp:55-61`. -/
def sdQJ (Ip I1 : Label) : Option ℚ := do
  checkDiff fields_QJ Ip I1 "Q" 1
  doubletChecked (← get fields_QJ Ip "JJ") (← get fields_QJ I1 "JJ")

/-- The spin part of `specdensquad_factor`, `sym-QJ-impl.hpp:68-84`. -/
def quadruplet (jjp jj1 : Int) : Option ℚ := do
  check (decide ((jj1 - jjp).natAbs = 1) || decide ((jj1 - jjp).natAbs = 3))
  if jj1 = jjp + 3 then pure (S jjp / 2 + 1)
  else if jj1 = jjp + 1 then do
    check (decide (jjp ≥ 2))
    pure (S jjp / 2 + 1 / 2)
  else if jj1 = jjp - 1 then do
    check (decide (jjp ≥ 2))
    pure (S jjp / 2)
  else if jj1 = jjp - 3 then do
    check (decide (jjp ≥ 4))
    pure (S jjp / 2 - 1 / 2)
  else none

/-- `specdensquad_factor`, `sym-QJ-impl.hpp:64-84`. -/
def sqQJ (Ip I1 : Label) : Option ℚ := do
  checkDiff fields_QJ Ip I1 "Q" 1
  quadruplet (← get fields_QJ Ip "JJ") (← get fields_QJ I1 "JJ")

/-- `specdens_factor`, `sym-ISO-impl.hpp:36-49` (and the copy for `ISO2`),
`sym-ISOLR-impl.hpp:33-43`. -/
def sdISO (fs : List Field) (Ip I1 : Label) : Option ℚ := do
  let spinfactor ← doubletChecked (← get fs Ip "SS") (← get fs I1 "SS")
  let isofactor ← doubletChecked (← get fs Ip "II") (← get fs I1 "II")
  pure (spinfactor * isofactor)

/-- `specdens_factor`, `sym-ISOSZ-impl.hpp:48-54`, `sym-ISOSZLR-impl.hpp:38-44`. -/
def sdISOSZ (fs : List Field) (Ip I1 : Label) : Option ℚ := do
  checkAbsDiff fs Ip I1 "SSZ" 1
  pure (doublet (← get fs Ip "II") (← get fs I1 "II"))

/-- `specdens_factor`, `sym-SU2-impl.hpp:31-37`. -/
def sdSU2 (Ip I1 : Label) : Option ℚ := do
  doubletChecked (← get fields_SU2 Ip "II") (← get fields_SU2 I1 "II")

/-- `specdens_factor`, `sym-DBLSU2-impl.hpp:32-38`. -/
def sdDBLSU2 (Ip I1 : Label) : Option ℚ := do
  doubletChecked (← get fields_DBLSU2 Ip "II1") (← get fields_DBLSU2 I1 "II1")

/-- `specdens_factor`, `sym-DBLISOSZ-impl.hpp:45-66`. -/
def sdDBLISOSZ (Ip I1 : Label) : Option ℚ := do
  checkAbsDiff fields_DBLISOSZ Ip I1 "SSZ" 1
  let ii1p ← get fields_DBLISOSZ Ip "II1"
  let ii11 ← get fields_DBLISOSZ I1 "II1"
  let ii2p ← get fields_DBLISOSZ Ip "II2"
  let ii21 ← get fields_DBLISOSZ I1 "II2"
  if (ii11 - ii1p).natAbs = 1 then do
    check (decide (ii2p = ii21))
    check (decide (ii2p ≥ 1))
    pure (doublet ii1p ii11 * ii2p)
  else if (ii21 - ii2p).natAbs = 1 then do
    check (decide (ii1p = ii11))
    check (decide (ii1p ≥ 1))
    pure (doublet ii2p ii21 * ii1p)
  else none

/-- `specdens_factor`, `sym-SPSU2-impl.hpp:61-66`. -/
def sdSPSU2 (Ip I1 : Label) : Option ℚ := do
  doubletChecked (← get fields_SPSU2 Ip "SS") (← get fields_SPSU2 I1 "SS")

/-- `dynamicsusceptibility_factor`, `sym-SPSU2-impl.hpp:54-59`,
`sym-SPSU2C3-impl.hpp:34-39`. -/
def dsSPSU2 (fs : List Field) (Ip I1 : Label) : Option ℚ := do
  triplet (← get fs Ip "SS") (← get fs I1 "SS")

/-- `specdens_factor`, `sym-SPSU2C3-impl.hpp:41-45`. -/
def sdSPSU2C3 (Ip I1 : Label) : Option ℚ := do
  pure (doublet (← get fields_SPSU2C3 Ip "SS") (← get fields_SPSU2C3 I1 "SS"))

/-- `specdens_factor`, `sym-SPSU2T-impl.hpp:51-63`. -/
def sdSPSU2T (Ip I1 : Label) : Option ℚ := do
  let spinfactor ← doubletChecked (← get fields_SPSU2T Ip "SS") (← get fields_SPSU2T I1 "SS")
  let angmomfactor ← triplet (2 * (← get fields_SPSU2T Ip "T") + 1) (2 * (← get fields_SPSU2T I1 "T") + 1)
  pure (spinfactor * angmomfactor)

/-- `dynamicsusceptibility_factor`, `sym-SPSU2T-impl.hpp:42-48`. -/
def dsSPSU2T (Ip I1 : Label) : Option ℚ := do
  checkDiff fields_SPSU2T Ip I1 "T" 0
  triplet (← get fields_SPSU2T Ip "SS") (← get fields_SPSU2T I1 "SS")

/-! ### Thermodynamic moments (`calculate_TD`) -/

/-- What a class adds to a trace per unit of `sumZ`, as a function of one
quantum number. -/
inductive Moment
  /-- `(ss * ss - 1) / 12.`, e.g. `sym-QS-impl.hpp:80`. -/
  | spinSq
  /-- `t * (t + 1) / 3.`, `sym-QST-impl.hpp:95`, `sym-SPSU2T-impl.hpp:72`. -/
  | angmomSq
  /-- `SZ(ssz)`, e.g. `sym-QSZ-impl.hpp:66`. -/
  | sz
  /-- `pow(SZ(ssz), 2)`, e.g. `sym-QSZ-impl.hpp:67`. -/
  | szSq
  /-- `q`. -/
  | charge
  /-- `q * q`. -/
  | chargeSq
  deriving DecidableEq, Repr

def Moment.weight : Moment → Int → ℚ
  | .spinSq, ss => ((ss * ss - 1 : Int) : ℚ) / 12
  | .angmomSq, t => ((t * (t + 1) : Int) : ℚ) / 3
  | .sz, ssz => S ssz
  | .szSq, ssz => S ssz ^ 2
  | .charge, q => q
  | .chargeSq, q => q * q

/-- One quantity computed by `calculate_TD`: the class's quantum numbers, its
column name, the quantum number used, the summand and the prefactor (4 for
`<Q^2>` from the isospin, e.g. `sym-ISO-impl.hpp:61`). -/
structure TDEntry where
  fields : List Field
  column : String
  qn : String
  moment : Moment
  prefactor : ℚ

/-- All quantities of all `calculate_TD` functions except `<sQ^2>` of SL, which
is the combination of `<Q>` and `<Q^2>` (lines as in `sym-X-impl.hpp`). -/
def tdEntries : List TDEntry :=
  [-- DBLISOSZ:78-96
   ⟨fields_DBLISOSZ, "<Sz>", "SSZ", .sz, 1⟩, ⟨fields_DBLISOSZ, "<Sz^2>", "SSZ", .szSq, 1⟩,
   ⟨fields_DBLISOSZ, "<Q1^2>", "II1", .spinSq, 4⟩, ⟨fields_DBLISOSZ, "<Q2^2>", "II2", .spinSq, 4⟩,
   -- DBLQSZ:46-68
   ⟨fields_DBLQSZ, "<Sz>", "SSZ", .sz, 1⟩, ⟨fields_DBLQSZ, "<Sz^2>", "SSZ", .szSq, 1⟩,
   ⟨fields_DBLQSZ, "<Q1>", "Q1", .charge, 1⟩, ⟨fields_DBLQSZ, "<Q1^2>", "Q1", .chargeSq, 1⟩,
   ⟨fields_DBLQSZ, "<Q2>", "Q2", .charge, 1⟩, ⟨fields_DBLQSZ, "<Q2^2>", "Q2", .chargeSq, 1⟩,
   -- DBLSU2:50-62
   ⟨fields_DBLSU2, "<Q1^2>", "II1", .spinSq, 4⟩, ⟨fields_DBLSU2, "<Q2^2>", "II2", .spinSq, 4⟩,
   -- ISO:51-62, ISOLR:44-55, ISOSZ:55-68, ISOSZLR:45-58
   ⟨fields_ISO, "<Sz^2>", "SS", .spinSq, 1⟩, ⟨fields_ISO, "<Q^2>", "II", .spinSq, 4⟩,
   ⟨fields_ISOLR, "<Sz^2>", "SS", .spinSq, 1⟩, ⟨fields_ISOLR, "<Q^2>", "II", .spinSq, 4⟩,
   ⟨fields_ISOSZ, "<Sz>", "SSZ", .sz, 1⟩, ⟨fields_ISOSZ, "<Sz^2>", "SSZ", .szSq, 1⟩,
   ⟨fields_ISOSZ, "<Q^2>", "II", .spinSq, 4⟩,
   ⟨fields_ISOSZLR, "<Sz>", "SSZ", .sz, 1⟩, ⟨fields_ISOSZLR, "<Sz^2>", "SSZ", .szSq, 1⟩,
   ⟨fields_ISOSZLR, "<Q^2>", "II", .spinSq, 4⟩,
   -- QJ:39-52, QS:72-85, QSC3:56-69, QSLR:54-67
   ⟨fields_QJ, "<Jz^2>", "JJ", .spinSq, 1⟩, ⟨fields_QJ, "<Q>", "Q", .charge, 1⟩,
   ⟨fields_QJ, "<Q^2>", "Q", .chargeSq, 1⟩,
   ⟨fields_QS, "<Sz^2>", "SS", .spinSq, 1⟩, ⟨fields_QS, "<Q>", "Q", .charge, 1⟩,
   ⟨fields_QS, "<Q^2>", "Q", .chargeSq, 1⟩,
   ⟨fields_QSC3, "<Sz^2>", "SS", .spinSq, 1⟩, ⟨fields_QSC3, "<Q>", "Q", .charge, 1⟩,
   ⟨fields_QSC3, "<Q^2>", "Q", .chargeSq, 1⟩,
   ⟨fields_QSLR, "<Sz^2>", "SS", .spinSq, 1⟩, ⟨fields_QSLR, "<Q>", "Q", .charge, 1⟩,
   ⟨fields_QSLR, "<Q^2>", "Q", .chargeSq, 1⟩,
   -- QST:85-102, QSTZ:57-74
   ⟨fields_QST, "<Sz^2>", "SS", .spinSq, 1⟩, ⟨fields_QST, "<Tz^2>", "T", .angmomSq, 1⟩,
   ⟨fields_QST, "<Q>", "Q", .charge, 1⟩, ⟨fields_QST, "<Q^2>", "Q", .chargeSq, 1⟩,
   ⟨fields_QSTZ, "<Sz^2>", "SS", .spinSq, 1⟩, ⟨fields_QSTZ, "<Tz^2>", "TZ", .chargeSq, 1⟩,
   ⟨fields_QSTZ, "<Q>", "Q", .charge, 1⟩, ⟨fields_QSTZ, "<Q^2>", "Q", .chargeSq, 1⟩,
   -- QSZ:60-75, QSZLR:41-56, QSZTZ:31-51
   ⟨fields_QSZ, "<Sz>", "SSZ", .sz, 1⟩, ⟨fields_QSZ, "<Sz^2>", "SSZ", .szSq, 1⟩,
   ⟨fields_QSZ, "<Q>", "Q", .charge, 1⟩, ⟨fields_QSZ, "<Q^2>", "Q", .chargeSq, 1⟩,
   ⟨fields_QSZLR, "<Sz>", "SSZ", .sz, 1⟩, ⟨fields_QSZLR, "<Sz^2>", "SSZ", .szSq, 1⟩,
   ⟨fields_QSZLR, "<Q>", "Q", .charge, 1⟩, ⟨fields_QSZLR, "<Q^2>", "Q", .chargeSq, 1⟩,
   ⟨fields_QSZTZ, "<Sz>", "SZ", .sz, 1⟩, ⟨fields_QSZTZ, "<Sz^2>", "SZ", .szSq, 1⟩,
   ⟨fields_QSZTZ, "<Tz>", "TZ", .charge, 1⟩, ⟨fields_QSZTZ, "<Tz^2>", "TZ", .chargeSq, 1⟩,
   ⟨fields_QSZTZ, "<Q>", "Q", .charge, 1⟩, ⟨fields_QSZTZ, "<Q^2>", "Q", .chargeSq, 1⟩,
   -- SL:40-52, SL3:31-55
   ⟨fields_SL, "<Q>", "Q", .charge, 1⟩, ⟨fields_SL, "<Q^2>", "Q", .chargeSq, 1⟩,
   ⟨fields_SL3, "<Q1>", "Q1", .charge, 1⟩, ⟨fields_SL3, "<Q1^2>", "Q1", .chargeSq, 1⟩,
   ⟨fields_SL3, "<Q2>", "Q2", .charge, 1⟩, ⟨fields_SL3, "<Q2^2>", "Q2", .chargeSq, 1⟩,
   ⟨fields_SL3, "<Q3>", "Q3", .charge, 1⟩, ⟨fields_SL3, "<Q3^2>", "Q3", .chargeSq, 1⟩,
   -- SPSU2:68-76, SPSU2C3:47-55, SPSU2LR:49-57, SPSU2T:65-76
   ⟨fields_SPSU2, "<Sz^2>", "SS", .spinSq, 1⟩, ⟨fields_SPSU2C3, "<Sz^2>", "SS", .spinSq, 1⟩,
   ⟨fields_SPSU2LR, "<Sz^2>", "SS", .spinSq, 1⟩,
   ⟨fields_SPSU2T, "<Sz^2>", "SS", .spinSq, 1⟩, ⟨fields_SPSU2T, "<Tz^2>", "T", .angmomSq, 1⟩,
   -- SPU1:51-62, SPU1LR:47-57
   ⟨fields_SPU1, "<Sz>", "SSZ", .sz, 1⟩, ⟨fields_SPU1, "<Sz^2>", "SSZ", .szSq, 1⟩,
   ⟨fields_SPU1LR, "<Sz>", "SSZ", .sz, 1⟩, ⟨fields_SPU1LR, "<Sz^2>", "SSZ", .szSq, 1⟩,
   -- SU2:53-61, U1:39-49
   ⟨fields_SU2, "<Q^2>", "II", .spinSq, 4⟩,
   ⟨fields_U1, "<Q>", "Q", .charge, 1⟩, ⟨fields_U1, "<Q^2>", "Q", .chargeSq, 1⟩]

/-- The loop of `calculate_TD` for one quantity: `Σ sumZ * weight`, where
`sumZ = calculate_Z(I, eig, factor) = mult(I) Σ exp(-factor x)`
(`c++/symmetry.hpp:127-129`; the Boltzmann sum is a parameter here), divided by
`stats.Z = Σ sumZ` (`c++/measurements.hpp:174`). -/
def tdValue (e : TDEntry) (diag : List (Label × ℚ)) : Option ℚ := do
  let terms ← diag.mapM fun (I, boltz) => do
    let x ← get e.fields I e.qn
    pure ((mult e.fields I : ℚ) * boltz * e.moment.weight x)
  let Z := (diag.map fun (I, boltz) => (mult e.fields I : ℚ) * boltz).sum
  pure (e.prefactor * terms.sum / Z)

end Verif.Spin
