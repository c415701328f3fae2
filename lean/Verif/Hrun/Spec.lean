import Verif.Hrun.Model
import Verif.Cmd.Spec
import Verif.DataFile.Spec
import Mathlib.Analysis.SpecialFunctions.Trigonometric.Basic
/-!
# What `hilb` should compute
-/

namespace Verif.Hrun
open Verif.Text
open Verif.DataFile (Lit Blank)
open Verif.Cmd
open MeasureTheory

/-! ## Files of numbers -/

/-- A number and the white space (line ends included) after it. -/
abbrev Item := Lit × Str

/-- The text of a file: white space, then numbers with white space after them. -/
def numText (pre : Str) (l : List Item) : Str := pre ++ l.flatMap fun p => p.1.text ++ p.2

/-- Numbers are separated; nothing need follow the last one. -/
def Items : List Item → Prop
  | [] => True
  | (x, w) :: l => x.OK ∧ Blank w ∧ (w = [] → l = []) ∧ Items l

/-- The numbers of the file. -/
def nums (l : List Item) : List ℚ := l.map fun p => Table.Dec.value p.1.val

/-- Rows of two and of three numbers; an incomplete last row does not count. -/
def rows2 : List ℚ → List (ℚ × ℚ)
  | a :: b :: l => (a, b) :: rows2 l
  | _ => []
def rows3 : List ℚ → List (ℚ × ℚ × ℚ)
  | a :: b :: c :: l => (a, b, c) :: rows3 l
  | _ => []

/-- The rows of two files side by side. -/
def sideBySide (a b : List (ℚ × ℚ)) : List Row := List.zipWith (fun p q => (p.1, q.1, p.2, q.2)) a b

/-- The labels agree to the accuracy `10⁻⁶`. -/
def agree (r : Row) : Bool := decide (|r.1 - r.2.1| ≤ 1 / 1000000)

/-! ## The transform -/

/-- The Green's function `∫ ρ(ω)/(z-ω) dω` of a density of states on the band from `-B` to `B`. -/
noncomputable def green (rho : ℝ → ℝ) (B : ℝ) (z : ℂ) : ℂ := ∫ w in (-B)..B, (rho w : ℂ) / (z - w)

/-- How well a number agrees with it: it is equal to it if `z` is at least `10⁻³` away from the real axis or outside the band, and closer to the band the difference is
at most `3 C |Im z| e^(-36.8)` in both parts, `C` being a Lipschitz constant of the density. Nothing is said for `z` straight above or below the edges. -/
def Approx (rho : ℝ → ℝ) (B : ℝ) (z g : ℂ) : Prop :=
  (1e-3 ≤ |z.im| ∨ z.re < -B ∨ B < z.re → g = green rho B z) ∧
  ∀ C, 0 ≤ C → (∀ w, |w - z.re| ≤ |z.im| * Real.exp (-36.8) → |rho w - rho z.re| ≤ C * |w - z.re|) → -B < z.re → z.re < B →
    |g.re - (green rho B z).re| ≤ 3 * C * (|z.im| * Real.exp (-36.8)) ∧ |g.im - (green rho B z).im| ≤ 3 * C * (|z.im| * Real.exp (-36.8))

/-- The semicircle with half-width `D`. -/
noncomputable def semi (D w : ℝ) : ℝ := 2 / (Real.pi * D ^ 2) * Real.sqrt (D ^ 2 - w ^ 2)

/-- The documented properties of a spline that are used: for at least three points with increasing abscissae it is continuous and goes through the points, and it is zero
if all values are. -/
structure Contract (S : Spline) : Prop where
  cont : ∀ l, 3 ≤ l.length → l.Pairwise (fun a b => a.1 < b.1) → Continuous (S l)
  through : ∀ l, 3 ≤ l.length → l.Pairwise (fun a b => a.1 < b.1) → ∀ p ∈ l, S l p.1 = p.2
  zero : ∀ l, 3 ≤ l.length → l.Pairwise (fun a b => a.1 < b.1) → (∀ p ∈ l, p.2 = 0) → ∀ x, S l x = 0

/-- The density of states that is used and the half-width of the band: that of the table, zero beyond its ends, or the semicircle. -/
inductive Density (S : Spline) (set : HilbSet) : Option (List (ℚ × ℚ)) → (ℝ → ℝ) → ℝ → Prop
  | table {pts : List (ℚ × ℚ)} {lo hi : ℚ × ℚ} {rho : ℝ → ℝ} (h1 : pts.head? = some lo) (h2 : pts.getLast? = some hi)
      (hin : ∀ w : ℝ, (lo.1 : ℝ) ≤ w → w ≤ hi.1 → rho w = S (reals pts) w) (hout : ∀ w : ℝ, w < lo.1 ∨ (hi.1 : ℝ) < w → rho w = 0) :
      Density S set (some pts) rho (max |(lo.1 : ℝ)| |(hi.1 : ℝ)|)
  | circle {D : ℚ} (h : 0 < D) (hw : set.width = some D) (hs : set.scale = some (1 / D)) : Density S set none (semi D) D

/-- The tables that can be used: at least three points with different abscissae, in any order. -/
def Usable (pts : List (ℚ × ℚ)) : Prop := 3 ≤ pts.length ∧ (pts.map Prod.fst).Nodup

/-- The points in increasing order. -/
def Ordered (pts l : List (ℚ × ℚ)) : Prop := l.Perm pts ∧ l.Pairwise fun a b => a.1 < b.1

/-- The argument of the transform: the point and the shifts of the command line. -/
noncomputable def argument (set : HilbSet) (x y : ℝ) : ℂ := ⟨x + set.shiftx, y + set.shifty⟩

/-- `ω - Σ(ω)`, the imaginary part of the self-energy being at most `-10⁻⁸`. -/
noncomputable def inverse (set : HilbSet) (r : Row) : ℂ := argument set ((r.1 : ℝ) - r.2.2.1) (-min (r.2.2.2 : ℝ) (-1e-8))

/-- A file with a table. -/
def TableFile (fs : Files) (f : Str) (pts : List (ℚ × ℚ)) : Prop :=
  ∃ pre items, fs f = some (numText pre items) ∧ Blank pre ∧ Items items ∧ pts = rows2 (nums items)

/-- The density that the options `-d` stand for: the last table, in increasing order, or none. -/
def Loaded (fs : Files) (dos : List Str) (d : Option (List (ℚ × ℚ))) : Prop :=
  (∀ f ∈ dos, ∃ pts, TableFile fs f pts ∧ Usable pts) ∧
  (dos = [] ∧ d = none ∨ ∃ f pts l, dos.getLast? = some f ∧ TableFile fs f pts ∧ Ordered pts l ∧ d = some l)

/-- What is printed of a number: the imaginary part, with `-G` also the real part. -/
def printed (G : Bool) (g : ℂ) : List ℝ := if G then [g.re, g.im] else [g.im]

/-- The factor: one with `-G`, otherwise `-1/π`. -/
noncomputable def factor (G : Bool) : ℝ := if G then 1 else -1 / Real.pi

end Verif.Hrun
