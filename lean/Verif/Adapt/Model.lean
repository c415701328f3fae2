import Verif.Tools.LinInt
/-!
# The discretisation tool

Model of `tools/adapt/adapt.hpp` over a field with exact arithmetic. Functions that are called with the right-hand side as a
parameter are modelled with an arbitrary right-hand side with a state, because the tabulated functions keep the last
interval that was found, and a flag that says whether it was left.
-/

namespace Verif.Adapt

open Verif.Tools

variable {K : Type} [Field K] [LinearOrder K]

/-- Exceptions. `interp` is that of the tabulated functions, `noSub` and `tooMany` are the two messages on
the number of subdivisions, `tolerance` that on the increasing energy. -/
inductive Err
  | interp
  | noSub
  | tooMany
  | tolerance
deriving DecidableEq

/-- `LambdaCache` (`tools/common/lambda.hpp:8-22`): `power` and `logL`. -/
structure Lam (K : Type) where
  pow : K → K
  logL : K

/-- The right-hand side as it is used: its value and the new state of the tabulated functions; the flag of `rho`. -/
structure Rhs (K S : Type) where
  rhs : S → K → K → Option (K × S)
  flag : S → Bool
  clear : S → S

/-- `rk_step` (`tools/adapt/adapt.hpp:69-76`). -/
def rkStep {S : Type} (F : Rhs K S) (s : S) (x y dx : K) : Option (K × S) := do
  let (r1, s) ← F.rhs s x y
  let k1 := dx * r1
  let (r2, s) ← F.rhs s (x + dx / 2) (y + k1 / 2)
  let k2 := dx * r2
  let (r3, s) ← F.rhs s (x + dx / 2) (y + k2 / 2)
  let k3 := dx * r3
  let (r4, s) ← F.rhs s (x + dx) (y + k3)
  let k4 := dx * r4
  pure ((k1 + 2 * k2 + 2 * k3 + k4) / 6, s)

/-- `heun_step` (`tools/adapt/adapt.hpp:77-82`). -/
def heunStep {S : Type} (F : Rhs K S) (s : S) (x y dx : K) : Option (K × S) := do
  let (r1, s) ← F.rhs s x y
  let k1 := dx * r1
  let (r2, s) ← F.rhs s (x + dx) (y + k1)
  let k2 := dx * r2
  pure ((k1 + k2) / 2, s)

/-- What the loop of `timestep` leaves behind. -/
structure Step (K S : Type) where
  dx : K
  dy : K
  maxErr : K
  obj : S

/-- One round of the loop of `timestep` (`tools/adapt/adapt.hpp:93-131`). The argument `retry` is the next round with half the
length; `none` if no further subdivision is allowed. -/
def attempt {S : Type} (F : Rhs K S) (allowed : K) (maxCnt : Int) (x y : K) (retry : Option (K → K → S → Except Err (Step K S)))
    (dx maxErr : K) (s : S) : Except Err (Step K S) :=
  match rkStep F (F.clear s) x y dx with
  | none => .error .interp
  | some (dy, s) =>
    match F.flag s, retry with
    | true, some r => r (dx / 2) maxErr s
    | _, _ =>
      match heunStep F s x y dx with
      | none => .error .interp
      | some (dh, s) =>
        let err := |dh - dy|
        let maxErr := max maxErr err
        match F.flag s, retry with
        | true, some r => r (dx / 2) maxErr s
        | _, _ =>
          if allowed < err then
            match retry with
            | some r => r (dx / 2) maxErr s
            | none => .ok ⟨dx, dy, maxErr, s⟩
          else if maxCnt < 1 then .error .noSub
          else .ok ⟨dx, dy, maxErr, s⟩

/-- The loop with the number of subdivisions that are still allowed. -/
def tryStep {S : Type} (F : Rhs K S) (allowed : K) (maxCnt : Int) (x y : K) : Nat → K → K → S → Except Err (Step K S)
  | 0 => attempt F allowed maxCnt x y none
  | n + 1 => attempt F allowed maxCnt x y (some (tryStep F allowed maxCnt x y n))

/-- The members of the class that change during the integration. -/
structure St (K S : Type) where
  x : K
  y : K
  maxErr : K
  obj : S

/-- The parameters of the integration (`tools/adapt/adapt.hpp:47-51`). -/
structure Par (K : Type) where
  lam : Lam K
  allowed : K
  maxSubdiv : Int
  xmax : K
  xfine : K
  outputStep : K
  dxFine : K
  dxFast : K
  maxAbs : K

/-- `timestep` (`tools/adapt/adapt.hpp:84-147`): the loop, the check that the energy does not increase, the update. -/
def timestep {S : Type} (P : Par K) (F : Rhs K S) (checkF : Bool) (tryDx : K) (st : St K S) : Except Err (St K S) :=
  match tryStep F P.allowed (2 * P.maxSubdiv) st.x st.y P.maxSubdiv.toNat tryDx st.maxErr st.obj with
  | .error e => .error e
  | .ok r =>
    if checkF = true ∧ 1 / 100000 < r.dy / r.dx - st.y * P.lam.logL then .error .tolerance
    else .ok ⟨st.x + r.dx, st.y + r.dy, r.maxErr, r.obj⟩

/-- `int_with_to` (`tools/adapt/adapt.hpp:149-159`); the first argument is `max_cnt`. -/
def intTo {S : Type} (P : Par K) (F : Rhs K S) (checkF : Bool) (dx xf : K) : Nat → St K S → Except Err (St K S)
  | cnt, st =>
    match timestep P F checkF (if st.x + dx < xf then dx else xf - st.x) st with
    | .error e => .error e
    | .ok st' =>
      match cnt with
      | 0 => .error .tooMany
      | cnt + 1 => if 1 / 10000000000 < |st'.x - xf| then intTo P F checkF dx xf cnt st' else .ok st'

/-- `max_cnt` (`tools/adapt/adapt.hpp:151`). -/
def maxCnt : Nat := 1000000

/-- The state of the loops over the lines of output: the length of the steps and the target. -/
structure Out (K S : Type) where
  st : St K S
  dx : K
  target : K

/-- One round of these loops (`tools/adapt/adapt.hpp:180-184, 352-356`). -/
def round {S : Type} (P : Par K) (F : Rhs K S) (checkF : Bool) (o : Out K S) : Except Err (Out K S) :=
  let target := o.target + P.outputStep
  match intTo P F checkF o.dx target maxCnt o.st with
  | .error e => .error e
  | .ok st => .ok ⟨st, if P.xfine < st.x then P.dxFast else o.dx, target⟩

/-- How a loop stands after a number of rounds, with the lines that were written. -/
inductive Res (K S : Type)
  | done (lines : List (K × K)) (st : St K S)
  | fail (lines : List (K × K)) (e : Err)
  | running (lines : List (K × K)) (o : Out K S)

/-- The loop; `again` is its condition. -/
def loop {S : Type} (P : Par K) (F : Rhs K S) (checkF : Bool) (again : St K S → Bool) :
    Nat → List (K × K) → Out K S → Res K S
  | 0, lines, o => .running lines o
  | n + 1, lines, o =>
    match round P F checkF o with
    | .error e => .fail lines e
    | .ok o' =>
      let lines := lines ++ [(o'.st.x, o'.st.y)]
      if again o'.st then loop P F checkF again n lines o' else .done lines o'.st

/-- `shoot_g` up to the ratio (`tools/adapt/adapt.hpp:162-185`). -/
def shootLoop {S : Type} (P : Par K) (F : Rhs K S) (obj : S) (n : Nat) : Res K S :=
  loop P F false (fun st => decide (st.x < P.xmax)) n [(2, 1)] ⟨⟨2, 1, 0, obj⟩, P.dxFine, 2⟩

/-- `calc_f` (`tools/adapt/adapt.hpp:339-363`) with `y = 1/Lambda` at the start. -/
def calcF {S : Type} (P : Par K) (F : Rhs K S) (Lambda : K) (obj : S) (n : Nat) : Res K S :=
  loop P F true (fun st => decide (st.x < P.xmax) && decide (|st.y| ≤ P.maxAbs)) n [(1, 1 / Lambda)]
    ⟨⟨1, 1 / Lambda, 0, obj⟩, P.dxFine, 1⟩

/-! ## The right-hand sides -/

/-- `rhs_G` (`tools/adapt/adapt.hpp:64-67`). -/
def rhsG (L : Lam K) (A : K) (rho : Tab K) : Rhs K (LinState K) where
  rhs s x y := do
    let p := L.pow (2 - x)
    let (r, s) ← linEval rho s (y * p)
    pure (L.logL * (y - A / r), s)
  flag s := s.flag
  clear s := { s with flag := false }

/-- `rescale` (`tools/adapt/adapt.hpp:233`). -/
def rescale (boundary omega : K) : K := (1 - boundary) * omega + boundary

/-- How the mesh is chosen: `g` if `adapt`, the boundary if `hardgap`. -/
structure Mesh (K : Type) where
  g : Option (Tab K)
  boundary : Option K

/-- `eps` (`tools/adapt/adapt.hpp:235-240`). -/
def eps (L : Lam K) (m : Mesh K) (sg : LinState K) (x : K) : Option (K × LinState K) := do
  let (gx, sg) ← match m.g with
    | some t => linEval t sg x
    | none => some (1, sg)
  let e := if x ≤ 2 then 1 else gx * L.pow (2 - x)
  let e := match m.boundary with
    | some b => rescale b e
    | none => e
  pure (e, sg)

/-- The tabulated functions used by `rhs_F`. -/
structure Objs (K : Type) where
  rho : LinState K
  g : LinState K
  int1 : LinState K
  int2 : LinState K

/-- `rhs_F` (`tools/adapt/adapt.hpp:247-263`). The order of the two integrals is not specified by the language; they use
different objects, and the mesh function does not depend on the history. -/
def rhsF (L : Lam K) (m : Mesh K) (rho intrho : Tab K) : Rhs K (Objs K) where
  rhs s x y := do
    let (e2, sg) ← eps L m s.g x
    let (r2, s2) ← intEval rho intrho s.int2 e2
    let (e1, sg) ← eps L m sg (x + 1)
    let (r1, s1) ← intEval rho intrho s.int1 e1
    let integral := r2 - r1
    let p := L.pow (2 - x)
    let (r, sr) ← linEval rho s.rho (y * p)
    let denom := p * r
    let term2 := if denom = 0 then 0 else integral / denom
    pure (L.logL * y - term2, ⟨sr, sg, s1, s2⟩)
  flag s := s.rho.flag
  clear s := { s with rho := { s.rho with flag := false } }

/-! ## The secant method -/

/-- What `calc_g` does: the table and the last value of `A`, an exception, or a division by zero (the program goes on with an infinite `A`). -/
inductive Sec (K V : Type)
  | found (A : K) (v : V)
  | thrown
  | notConverged
  | divZero
  deriving DecidableEq

/-- The loop of the secant method (`tools/adapt/adapt.hpp:214-229`). The first argument is the number of iterations that are
left after this one. -/
def secant {V : Type} (shoot : K → Option (K × V)) (eps : K) : Nat → K → K → K → K → Sec K V
  | n, x0, x1, y0, y1 =>
    if y1 - y0 = 0 then .divZero
    else
      let xnew := x1 - (x1 - x0) / (y1 - y0) * y1
      match shoot xnew with
      | none => .thrown
      | some (ratio, v) =>
        if |ratio - 1| < eps then .found xnew v
        else
          match n with
          | 0 => .notConverged
          | n + 1 => secant shoot eps n x1 xnew y1 (ratio - 1)

/-- `calc_g` (`tools/adapt/adapt.hpp:196-230`) for the shooting as a function of `A`. -/
def calcG {V : Type} (shoot : K → Option (K × V)) (eps factor0 : K) (maxIter : Int) (intA : K) : Sec K V :=
  match shoot intA with
  | none => .thrown
  | some (ratio1, v1) =>
    if |ratio1 - 1| < eps then .found intA v1
    else
      let A := if 1 < ratio1 then intA * factor0 else intA / factor0
      match shoot A with
      | none => .thrown
      | some (ratio2, v2) =>
        if |ratio2 - 1| < eps then .found A v2
        else secant shoot eps (maxIter - 1).toNat intA A (ratio1 - 1) (ratio2 - 1)

/-! ## Preparation of the table -/

/-- `add_zero_point` (`tools/adapt/adapt.hpp:31-37`) on a sorted table: the sorting moves the new point to the front. -/
def addZeroPoint (small : K) (t : Tab K) : Tab K :=
  match t with
  | (x0, y0) :: rest => if small < x0 then (small, y0) :: (x0, y0) :: rest else t
  | [] => []

/-- `rescale_xy` (`tools/common/tabulated.hpp:58-65`). -/
def rescaleXY (fx fy : K) (t : Tab K) : Tab K := t.map fun p => (p.1 * fx, p.2 * fy)

/-- `flat_rho` (`tools/adapt/load.hpp:59-65`). -/
def flatRho (gamma : K) : Option (Tab K) := if 0 < gamma then some [(1 / 10000000000, gamma), (1, gamma)] else none

/-- `load_init_rho` (`tools/adapt/adapt.hpp:264-282`) on the table of the hybridisation function: the table
of `rho` and its integral. -/
def initRho (small bandrescale : K) (t : Tab K) : Option (Tab K × Tab K) :=
  let rho := rescaleXY (1 / bandrescale) bandrescale (addZeroPoint small t)
  match trapez rho with
  | none => none
  | some (ti, _) => some (rho, ti)

/-- The checks of `set_parameters` (`tools/adapt/adapt.hpp:298-331`); `epsilon` is the machine precision. -/
def paramsOK (Lambda epsilon : K) (P : Par K) : Bool :=
  decide (1 < Lambda) && decide (1 < P.xmax) && decide (1 < P.xfine) && decide (P.outputStep ≤ 1) &&
    decide (epsilon < P.dxFine * (1 / 2) ^ P.maxSubdiv) && decide (0 < P.maxAbs)

end Verif.Adapt
