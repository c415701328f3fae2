import Verif.Bw.Spec
import Verif.Cmd.Spec
import Verif.Zrun.Spec
/-!
# `bw`: what a user asks for
-/

namespace Verif.Wrun
open Verif.Text Verif.Cmd
open Verif.Zrun (freq weight sumRows)

/-- A command line `bw [options] name b0 Nz` without the request for help. -/
def Asks (l : Line) (n b z : Str) : Prop :=
  l.OK ['h', 'v', 'V', 'm', ':', 'M', ':', 'r', ':', 'n', ':', 't', ':', 'p', 'q', ':', 's', 'S', 'x', ':', 'd', ':', 'o'] ∧ given 'h' l.options = false ∧
    l.operands = [n, b, z] ∧ 0 < num b ∧ 1 ≤ int z

/-- The numbers that are asked for: an option that is not given has its default value. -/
noncomputable def wanted (l : Line) (b z : Str) : Bw.Opt where
  min := (numOf 'm' (1 / 10000000) l.options : ℚ)
  max := (numOf 'M' 2 l.options : ℚ)
  ratio := (numOf 'r' (101 / 100) l.options : ℚ)
  iters := ((argOf 'n' l.options).map int).getD 10
  trim := (numOf 't' (-999) l.options : ℚ)
  positivity := given 'p' l.options
  b0 := (num b : ℚ)
  bmin := (numOf 'x' (-999) l.options : ℚ)
  q := (numOf 'q' 1 l.options : ℚ)
  savemore := given 's' l.options
  saveall := given 'S' l.options
  dyn := (numOf 'd' (-999) l.options : ℚ)
  one := given 'o' l.options
  Nz := int z

/-- `s` is the mean of the raw spectra of `N` calculations: in increasing order every frequency that occurs, with the mean of the weights there. -/
def Mean (N : Nat) (rows : Nat → List (List ℝ)) (s : List (ℝ × ℝ)) : Prop :=
  (s.Pairwise fun p q => p.1 < q.1) ∧ (∀ x, (∃ v, (x, v) ∈ s) ↔ ∃ i, 1 ≤ i ∧ i ≤ N ∧ ∃ r ∈ rows i, freq r = x) ∧
    open Classical in ∀ p ∈ s, p.2 = sumRows N rows (fun r => if freq r = p.1 then weight 1 r else 0) / (N : ℝ)

/-- `<kind><i>.dat`. -/
def numbered (kind : Str) (i : Nat) : Str := kind ++ (natStr i ++ ['.', 'd', 'a', 't'])

/-- The spectrum of iteration `i`: `a<i>.dat`. -/
def result (i : Nat) : Str := numbered ['a'] i

/-- What a run may write, depending on `-s` and `-S`. -/
def MayWrite (o : Bw.Opt) (fn : Str) : Prop :=
  (o.savemore = true ∧ fn = ['b', '.', 'd', 'a', 't']) ∨ ∃ i : Nat, 1 ≤ i ∧ (i : Int) ≤ o.iters ∧
    ((fn = result i ∧ (o.savemore = true ∨ (i : Int) = o.iters)) ∨ (o.savemore = true ∧ fn = numbered ['b'] i) ∨
      (o.saveall = true ∧ ∃ k ∈ [['i', 'n', 't', 'a'], ['i', 'n', 't', 'b'], ['i', 'n', 't', 'c'], ['d', 'e', 'r', 'i', 'v', 'a'], ['d', 'e', 'r', 'i', 'v', 'b'],
        ['d', 'e', 'r', 'i', 'v', 'c'], ['b', 'p', 'o', 's'], ['b', 'n', 'e', 'g']], fn = numbered k i))

end Verif.Wrun
