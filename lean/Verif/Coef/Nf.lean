import Verif.Coef.Model
/-!
# A normal form for the factors

A factor is brought to the form `n/d · √r · Π √(u+k)^e_k · Π √(v+k)^f_k · p(u,v)` for
all `u, v ≥ 0`, by a computation the kernel can carry out.  Nothing here models the
program: it is the method by which identities between factors are proved
(`Verif.Coef.NfSound`).
-/

namespace Verif.Coef

/-! ### Polynomials -/

abbrev P1 := List Int
abbrev P2 := List P1

def c1 (a : Int) : P1 → P1
  | [] => if a = 0 then [] else [a]
  | b :: p => a :: b :: p

def c2 (a : P1) : P2 → P2
  | [] => match a with
    | [] => []
    | x :: y => [x :: y]
  | b :: p => a :: b :: p

def add1 : P1 → P1 → P1
  | [], b => b
  | x :: a, [] => x :: a
  | x :: a, y :: b => c1 (x + y) (add1 a b)

def scale1 (c : Int) : P1 → P1
  | [] => []
  | x :: a => c * x :: scale1 c a

def mul1 : P1 → P1 → P1
  | [], _ => []
  | x :: a, b => add1 (scale1 x b) (c1 0 (mul1 a b))

def add2 : P2 → P2 → P2
  | [], b => b
  | x :: a, [] => x :: a
  | x :: a, y :: b => c2 (add1 x y) (add2 a b)

def scale2 (c : Int) : P2 → P2
  | [] => []
  | x :: a => scale1 c x :: scale2 c a

def mulRow (x : P1) : P2 → P2
  | [] => []
  | y :: b => mul1 x y :: mulRow x b

def mul2 : P2 → P2 → P2
  | [], _ => []
  | x :: a, b => add2 (mulRow x b) (c2 [] (mul2 a b))

/-- Multiplication by `u + k`. -/
def mulU (k : Nat) (p : P2) : P2 := add2 (scale2 k p) (c2 [] p)

/-- Multiplication by `v + k`. -/
def mulV (k : Nat) : P2 → P2
  | [] => []
  | r :: p => add1 (scale1 k r) (c1 0 r) :: mulV k p

/-- Remainder and quotient on division by `v + k`. -/
def div1 (k : Nat) : P1 → Int × P1
  | [] => (0, [])
  | a :: p => match div1 k p with
    | (r, q) => (a - k * r, c1 r q)

/-- Remainder and quotient on division by `u + k`. -/
def divU (k : Nat) : P2 → P1 × P2
  | [] => ([], [])
  | a :: p => match divU k p with
    | (r, q) => (add1 a (scale1 (-(k : Int)) r), c2 r q)

/-- The quotient on division by `v + k`, if it is exact. -/
def divV (k : Nat) : P2 → Option P2
  | [] => some []
  | r :: p => match div1 k r with
    | (rem, q) => if rem = 0 then (divV k p).map (q :: ·) else none

def one2 : P2 → Bool
  | [[x]] => x == 1
  | _ => false

/-- `mul2` with a shortcut. -/
def mulP (a b : P2) : P2 := if one2 a then b else if one2 b then a else mul2 a b

/-- Factors `u + k` of `p`, their number added to `n`. -/
def pullU (k : Nat) : Nat → Nat → P2 → Nat × P2
  | 0, n, p => (n, p)
  | fuel + 1, n, p => match divU k p with
    | ([], q) => pullU k fuel (n + 1) q
    | _ => (n, p)

def pullV (k : Nat) : Nat → Nat → P2 → Nat × P2
  | 0, n, p => (n, p)
  | fuel + 1, n, p => match divV k p with
    | some q => pullV k fuel (n + 1) q
    | none => (n, p)

def gcd1 : Nat → P1 → Nat
  | g, [] => g
  | g, x :: p => gcd1 (Nat.gcd g x.natAbs) p

def gcd2 : Nat → P2 → Nat
  | g, [] => g
  | g, x :: p => gcd2 (gcd1 g x) p

def divI1 (g : Nat) : P1 → P1
  | [] => []
  | x :: p => x / (g : Int) :: divI1 g p

def divI2 (g : Nat) : P2 → P2
  | [] => []
  | x :: p => divI1 g x :: divI2 g p

def pos1 : P1 → Bool
  | [] => true
  | x :: p => decide (0 ≤ x) && pos1 p

def pos2 : P2 → Bool
  | [] => true
  | x :: p => pos1 x && pos2 p

/-- The value at the origin is positive and no coefficient is negative. -/
def positive : P2 → Bool
  | (x :: r) :: p => decide (0 < x) && (pos1 r && pos2 p)
  | _ => false

/-! ### Exponents: `[e_1, e_2, …]` stands for the product of `√(w + k) ^ e_k` -/

abbrev Exps := List Int

def addE : Exps → Exps → Exps
  | [], b => b
  | x :: a, [] => x :: a
  | x :: a, y :: b => (x + y) :: addE a b

def negE : Exps → Exps
  | [] => []
  | x :: a => (-x) :: negE a

def min0 : Exps → Exps
  | [] => []
  | x :: a => min x 0 :: min0 a

def minE : Exps → Exps → Exps
  | [], b => min0 b
  | x :: a, [] => min x 0 :: min0 a
  | x :: a, y :: b => min x y :: minE a b

/-- Half of the exponents, if they are all even. -/
def halfE : Exps → Option Exps
  | [] => some []
  | x :: a => if x % 2 = 0 then (halfE a).map (x / 2 :: ·) else none

def iter {α} (f : α → α) : Nat → α → α
  | 0, x => x
  | n + 1, x => iter f n (f x)

/-- Multiplication by the product of `f k`, where the exponents are even and not negative. -/
def expand (f : Nat → P2 → P2) : Nat → Exps → P2 → Option P2
  | _, [], p => some p
  | k, e :: es, p =>
    if e = 0 then expand f (k + 1) es p
    else if e % 2 = 0 ∧ 0 ≤ e then expand f (k + 1) es (iter (f k) (e / 2).toNat p) else none

/-! ### Normal forms -/

structure Mono where
  n : Int
  d : Nat
  r : Nat
  eu : Exps
  ev : Exps
  p : P2
  deriving DecidableEq, Repr

namespace Mono

def const (n : Int) (d : Nat) : Mono := ⟨n, d, 1, [], [], [[1]]⟩

/-- Remove the common factor of numerator and denominator. -/
def reduce (m : Mono) : Mono :=
  match Nat.gcd m.n.natAbs m.d with
  | 0 => m
  | 1 => m
  | g => { m with n := m.n / (g : Int), d := m.d / g }

def neg (m : Mono) : Mono := { m with n := -m.n }

def mul (a b : Mono) : Mono :=
  reduce ⟨a.n * b.n * (Nat.gcd a.r b.r : Int), a.d * b.d, (a.r / Nat.gcd a.r b.r) * (b.r / Nat.gcd a.r b.r),
    addE a.eu b.eu, addE a.ev b.ev, mulP a.p b.p⟩

def inv (a : Mono) : Option Mono :=
  if a.p = [[1]] ∧ a.n ≠ 0 ∧ a.d ≠ 0 ∧ a.r ≠ 0 then
    some (reduce ⟨if 0 < a.n then a.d else -a.d, a.n.natAbs * a.r, a.r, negE a.eu, negE a.ev, [[1]]⟩)
  else none

/-- Take square factors `q²` out of `n`. -/
def square (q : Nat) : Nat → Nat → Nat → Nat × Nat
  | 0, a, n => (a, n)
  | fuel + 1, a, n => if n % (q * q) = 0 then square q fuel (a * q) (n / (q * q)) else (a, n)

def squares : List Nat → Nat → Nat → Nat × Nat
  | [], a, n => (a, n)
  | q :: qs, a, n => match square q 12 a n with
    | (a, n) => squares qs a n

/-- Square root of a positive normal form without radical. -/
def sqrt (m : Mono) : Option Mono :=
  if m.p = [[1]] ∧ m.r = 1 ∧ 0 < m.n ∧ m.d ≠ 0 then
    match halfE m.eu, halfE m.ev, squares [2, 3, 5, 7, 11, 13, 17, 19, 23] 1 (m.n.natAbs * m.d) with
    | some eu, some ev, (a, b) =>
      if a * a * b = m.n.natAbs * m.d then some (reduce ⟨a, m.d, b, eu, ev, [[1]]⟩) else none
    | _, _, _ => none
  else none

/-- Sign of a value that cannot vanish: `true` is negative. -/
def sgn (m : Mono) : Option Bool :=
  if m.n = 0 ∨ m.d = 0 ∨ m.r = 0 then none
  else if positive m.p then some (decide (m.n < 0))
  else if positive (scale2 (-1) m.p) then some (decide (0 < m.n))
  else none

/-- Number of factors `w + k` tried. -/
def width : Nat := 14

/-- The value at `u = v = 0`. -/
def origin : P2 → Int
  | [] => 0
  | [] :: _ => 0
  | (x :: _) :: _ => x

/-- `v` does not occur. -/
def flatV : P2 → Bool
  | [] => true
  | r :: p => (match r with
    | [] => true
    | [_] => true
    | _ => false) && flatV p

/-- `u` does not occur. -/
def flatU : P2 → Bool
  | [] => true
  | [_] => true
  | _ => false

/-- Find the factors `u + k`, `u + k + 1`, … of the polynomial. -/
def pullsU : Nat → Nat → P2 → Exps × P2
  | 0, _, p => ([], p)
  | n + 1, k, p =>
    if flatU p then ([], p)
    else if origin p % (k : Int) = 0 then
      (2 * ((pullU k 12 0 p).1 : Int) :: (pullsU n (k + 1) (pullU k 12 0 p).2).1, (pullsU n (k + 1) (pullU k 12 0 p).2).2)
    else (0 :: (pullsU n (k + 1) p).1, (pullsU n (k + 1) p).2)

/-- Find the factors `v + k`, `v + k + 1`, … of the polynomial. -/
def pullsV : Nat → Nat → P2 → Exps × P2
  | 0, _, p => ([], p)
  | n + 1, k, p =>
    if flatV p then ([], p)
    else if origin p % (k : Int) = 0 then
      (2 * ((pullV k 12 0 p).1 : Int) :: (pullsV n (k + 1) (pullV k 12 0 p).2).1, (pullsV n (k + 1) (pullV k 12 0 p).2).2)
    else (0 :: (pullsV n (k + 1) p).1, (pullsV n (k + 1) p).2)

def content (m : Mono) : Mono :=
  match gcd2 0 m.p with
  | 0 => m
  | 1 => m
  | g => if scale2 g (divI2 g m.p) = m.p then { m with n := m.n * (g : Int), p := divI2 g m.p } else m

def signOut (m : Mono) : Mono := if m.p = [[-1]] then { m with n := -m.n, p := [[1]] } else m

def pull (m : Mono) : Mono :=
  { m with ev := addE m.ev (pullsV width 1 m.p).1, eu := addE m.eu (pullsU width 1 (pullsV width 1 m.p).2).1,
           p := (pullsU width 1 (pullsV width 1 m.p).2).2 }

def refactor (m : Mono) : Mono := reduce (signOut (pull (content m)))

/-- Sum of two normal forms with the same radical.  `some none`: it vanishes. -/
def add (a b : Mono) : Option (Option Mono) :=
  if a.r = b.r ∧ a.d ≠ 0 ∧ b.d ≠ 0 then
    match minE a.eu b.eu, minE a.ev b.ev with
    | eu, ev =>
      match expand mulU 1 (addE a.eu (negE eu)) (scale2 (a.n * (b.d : Int)) a.p) with
      | none => none
      | some pa => match expand mulV 1 (addE a.ev (negE ev)) pa with
        | none => none
        | some pa => match expand mulU 1 (addE b.eu (negE eu)) (scale2 (b.n * (a.d : Int)) b.p) with
          | none => none
          | some pb => match expand mulV 1 (addE b.ev (negE ev)) pb with
            | none => none
            | some pb => match add2 pa pb with
              | [] => some none
              | x :: p => some (some (refactor ⟨1, a.d * b.d, a.r, eu, ev, x :: p⟩))
  else none

end Mono

/-- Abstract values: a normal form (a finite number), a zero, an infinity, NaN; `none`: sign unknown. -/
inductive AVal
  | fin (m : Mono)
  | zero (s : Option Bool)
  | inf (s : Option Bool)
  | nan
  deriving DecidableEq, Repr

namespace AVal

def notS : Option Bool → Option Bool
  | none => none
  | some b => some (!b)

def xorS : Option Bool → Option Bool → Option Bool
  | some a, some b => some (a ^^ b)
  | _, _ => none

def ofRat (n : Int) (d : Nat) : Option AVal :=
  if d = 0 then none else if n = 0 then some (zero (some false)) else some (fin (.reduce (.const n d)))

def neg : AVal → AVal
  | fin m => fin m.neg
  | zero s => zero (notS s)
  | inf s => inf (notS s)
  | nan => nan

def mul : AVal → AVal → Option AVal
  | nan, _ => some nan
  | _, nan => some nan
  | inf _, zero _ => some nan
  | zero _, inf _ => some nan
  | inf s, inf t => some (inf (xorS s t))
  | zero s, zero t => some (zero (xorS s t))
  | inf s, fin m => match m.sgn with
    | none => none
    | some t => some (inf (xorS s (some t)))
  | fin m, inf s => match m.sgn with
    | none => none
    | some t => some (inf (xorS s (some t)))
  | zero s, fin m => some (zero (xorS s m.sgn))
  | fin m, zero s => some (zero (xorS s m.sgn))
  | fin a, fin b => some (fin (a.mul b))

def inv : AVal → Option AVal
  | fin m => m.inv.map fin
  | zero s => some (inf s)
  | inf s => some (zero s)
  | nan => some nan

def addZ : Option Bool → Option Bool → Option Bool
  | some a, some b => some (a && b)
  | some false, _ => some false
  | _, some false => some false
  | _, _ => none

def add : AVal → AVal → Option AVal
  | nan, _ => some nan
  | _, nan => some nan
  | inf (some s), inf (some t) => some (if s = t then inf (some s) else nan)
  | inf _, inf _ => none
  | inf s, fin _ => some (inf s)
  | inf s, zero _ => some (inf s)
  | fin _, inf s => some (inf s)
  | zero _, inf s => some (inf s)
  | zero s, zero t => some (zero (addZ s t))
  | zero _, fin m => some (fin m)
  | fin m, zero _ => some (fin m)
  | fin a, fin b => match a.add b with
    | none => none
    | some none => some (zero (if a.sgn.isSome ∧ b.sgn.isSome then some false else none))
    | some (some m) => some (fin m)

def sqrt : AVal → Option AVal
  | fin m => match m.sgn with
    | none => none
    | some true => some nan
    | some false => m.sqrt.map fin
  | zero s => some (zero s)
  | inf none => none
  | inf (some s) => some (if s then nan else inf (some false))
  | nan => some nan

def pow (a : AVal) : Nat → Option AVal
  | 0 => some (fin (.const 1 1))
  | 1 => some a
  | n + 2 => match pow a (n + 1) with
    | none => none
    | some b => b.mul a

def hpow (a : AVal) (n : Nat) : Option AVal :=
  match a with
  | fin m => match m.sgn with
    | none => none
    | some true => some nan
    | some false => match m.sqrt with
      | none => none
      | some q => (fin q).pow (2 * n + 1)
  | zero _ => some (zero (some false))
  | inf _ => some (inf (some false))
  | nan => some nan

end AVal

/-- The normal form of an expression; `env`: those of the variables. -/
def Ex.norm (env : Nat → Option AVal) : Ex → Option AVal
  | num n d => AVal.ofRat n d
  | var v => env v
  | neg a => (a.norm env).map .neg
  | add a b => match a.norm env, b.norm env with
    | some x, some y => x.add y
    | _, _ => none
  | sub a b => match a.norm env, b.norm env with
    | some x, some y => x.add y.neg
    | _, _ => none
  | mul a b => match a.norm env, b.norm env with
    | some x, some y => x.mul y
    | _, _ => none
  | div a b => match a.norm env, b.norm env with
    | some x, some y => match y.inv with
      | some z => x.mul z
      | none => none
    | _, _ => none
  | pow a n => (a.norm env).bind (·.pow n)
  | ipow a n => ((a.norm env).bind (·.pow n)).bind AVal.inv
  | hpow a n => (a.norm env).bind (·.hpow n)
  | sqrt a => (a.norm env).bind AVal.sqrt

/-- The value `(y - 1)/2` of a variable with multiplicity `y`. -/
inductive Reg
  /-- `y` itself -/
  | conc (y : Nat)
  /-- `y = y0 + u`, `u ≥ 0` -/
  | genU (y0 : Nat)
  /-- `y = y0 + v`, `v ≥ 0` -/
  | genV (y0 : Nat)
  deriving DecidableEq, Repr

/-- The exponents of `w + k`. -/
def unitE : Nat → Exps
  | 0 => []
  | 1 => [2]
  | n + 2 => 0 :: unitE (n + 1)

def Reg.val : Reg → Option AVal
  | conc y => AVal.ofRat ((y : Int) - 1) 2
  | genU y0 => if 2 ≤ y0 then some (.fin ⟨1, 2, 1, unitE (y0 - 1), [], [[1]]⟩) else none
  | genV y0 => if 2 ≤ y0 then some (.fin ⟨1, 2, 1, [], unitE (y0 - 1), [[1]]⟩) else none

end Verif.Coef
