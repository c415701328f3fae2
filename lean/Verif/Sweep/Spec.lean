import Verif.Sweep.Model
import Verif.Store.Props
/-!
# Specification for C100 and C101
-/

namespace Verif.Sweep
open Verif.Invar Verif.Store Verif.Subspaces
variable {K : Type} [Field K] [LinearOrder K] {Ch E Key : Type}

/-- What the eigensolver delivers: one spectrum for each label, in increasing
order of labels; matrices with consistent dimensions; the length of an
eigenvector is the dimension of its subspace in the structure built from the
previous spectra. -/
def SolveOK (V : Env K Ch E Key) : Prop :=
  ∀ N c d r str, Symm.substruct V.sym (sizes d) = some str →
    Sorted (V.solve N c d r) ∧
    ∀ p ∈ V.solve N c d r, p.2.vec.WF ∧ ∃ ds, str.lookup p.1 = some ds ∧ ds.sum = p.2.vec.cols

/-- The operator `k` is carried through all steps before step `N` in both
sweeps. -/
def Carried (V : Env K Ch E Key) (Ninit N : Nat) (k : Key) : Prop :=
  ∀ j, Ninit ≤ j → j < N → V.selected .nrg j k = true ∧ V.selected .dm j k = true

/-- Two lists of operators with the same names, equal for those operators that
satisfy `C`. -/
def OpsAgree (C : Key → Prop) (a b : List (Key × E)) : Prop :=
  List.Forall₂ (fun p q => q.1 = p.1 ∧ (C p.1 → q.2 = p.2)) a b

/-- Step `N` of the second sweep works with what the same step of the first sweep
worked with: the same structure, spectra, eigenvectors, numbers of kept states
and corrected energies (all of it also after the truncation), the same operators
of the chain; only the reference energy `gs` is filled in.  Operators carried
through both sweeps have the same matrices at the end of the step, and the same
in the measurement if both sweeps measure at the same stage. -/
structure SameStep (V : Env K Ch E Key) (P : Par K) (gs : K) (r1 r2 : Rec K Ch E Key) : Prop where
  N : r2.N = r1.N
  str : r2.str = r1.str
  all : r2.all = setGS gs r1.all
  cut : r2.cut = setGS gs r1.cut
  chain : r2.chain = r1.chain
  ops : OpsAgree (Carried V P.Ninit (r1.N + 1)) r1.ops r2.ops
  measured : recalcKept P .nrg = recalcKept P .dm →
    OpsAgree (Carried V P.Ninit (r1.N + 1)) r1.measured r2.measured ∧ r2.measuredDiag = setGS gs r1.measuredDiag

/-- A spectrum after the splitting: one block for each entry of the structure, of
the width given there, with a row for each state; and not more states to keep
than there are. -/
def SplitOK (str : Struct) (p : Label × Eig K) : Prop :=
  (∃ ds, str.lookup p.1 = some ds ∧ p.2.blocks.map Mat.cols = ds) ∧
  (∀ b ∈ p.2.blocks, b.WF ∧ b.rows = nrstored p.2) ∧ 0 ≤ p.2.nrpost ∧ p.2.nrpost.toNat ≤ nrstored p.2

/-- Recalculation of an operator from all states followed by trimming gives what
recalculation from the kept states and trimming gives (`Verif.Ops.recalc_then_trim`). -/
def TrimCommutes (V : Env K Ch E Key) : Prop :=
  ∀ N str (all cut : Diag K) k m x y, (∀ p ∈ all, SplitOK str p) → truncatePerform all = .ok cut →
    V.recalc N str (view all) k m = .ok x → V.recalc N str (view cut) k m = .ok y →
      V.trim (sizes cut) x = V.trim (sizes cut) y

/-- The Floquet preparation rearranges eigenvalues and eigenvectors and changes
the criteria; numbers of states and dimensions stay. -/
def FloqOK (V : Env K Ch E Key) : Prop :=
  ∀ N ops (d d' : Diag K) e, V.floq N ops d = .ok (e, d') →
    d'.map (fun p => (p.1, p.2.values.v.length, p.2.values.cShift, p.2.dim, p.2.nrstored)) =
      d.map (fun p => (p.1, p.2.values.v.length, p.2.values.cShift, p.2.dim, p.2.nrstored)) ∧
    ((∀ p ∈ d, p.2.m.WF) → ∀ p ∈ d', p.2.m.WF)

end Verif.Sweep
