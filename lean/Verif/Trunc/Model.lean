import Mathlib.Order.Defs.LinearOrder
import Mathlib.Algebra.Order.Group.Defs
import Mathlib.Data.List.Sort
/-!
# Truncation (`c++/truncation.hpp`, parts of `c++/eigen.hpp` and `c++/core.hpp`)

Costs and energies are elements of a linearly ordered additive group `K`
(`double` in the code, without rounding).
-/

namespace Verif.Trunc

/-- Abnormal outcomes: a failed `my_assert` (throws), undefined behaviour. -/
inductive Err
  | assertFailed
  | undefinedBehaviour
  deriving DecidableEq, Repr

/-- The parameters read by `highest_retained` (`c++/params.hpp:180-191`).
Simplification: `keepenergy` stands for `P.keepenergy * step.unscale()`, which
has the sign of `P.keepenergy` because `unscale()` is positive; `keepall` is the
result of `keepall(step, P)` (`c++/truncation.hpp:17-24`, see
`Verif.Text.keepall`). -/
structure Settings (K : Type) where
  keep : Nat
  keepenergy : K
  keepmin : Nat
  safeguard : K
  safeguardmax : Nat
  keepall : Bool
  floquet : Bool

variable {K : Type} [AddCommGroup K] [LinearOrder K]

/-- `std::clamp<size_t>(v, lo, hi)`: undefined if `hi < lo`. -/
def clamp (v lo hi : Nat) : Except Err Nat :=
  if hi < lo then .error .undefinedBehaviour
  else .ok (if v < lo then lo else if hi < v then hi else v)

/-- The number of states asked for (`c++/truncation.hpp:42-44`). -/
def nrkeep0 (s : Settings K) (all : List K) : Except Err Nat :=
  if s.keepenergy ≤ 0 then .ok s.keep
  else clamp (1 + all.countP (fun e => decide (e ≤ s.keepenergy))) s.keepmin s.keep

/-- `std::nth_element` at position `k-1` followed by `std::sort` of the first
`k` elements (`c++/truncation.hpp:49-50`): the first `k` entries of the array
are the `k` smallest ones in increasing order. The order of the remaining ones
is unspecified, so they are left out: reading one of them is an error. -/
def partialSort (k : Nat) (all : List K) : List K := (all.insertionSort (· ≤ ·)).take k

/-- Read of `all[i]` inside the sorted part. -/
def readAt (arr : List K) (i : Nat) : Except Err K :=
  match arr[i]? with
  | some x => .ok x
  | none => .error .undefinedBehaviour

/-- The safeguard loop (`c++/truncation.hpp:53-57`). `left` is
`safeguardmax - cnt_extra`. `all[nrkeep - 1]` is read even when the counter is
exhausted; it is out of bounds for `nrkeep = 0`. -/
def safeguardLoop (arr : List K) (sg : K) (pre : Nat) : Nat → Nat → Except Err Nat
  | left, n =>
    if n < pre then
      match readAt arr n with
      | .error e => .error e
      | .ok a =>
        if n = 0 then .error .undefinedBehaviour
        else match readAt arr (n - 1) with
          | .error e => .error e
          | .ok b =>
            if a - b ≤ sg then
              match left with
              | 0 => .ok n
              | left + 1 => safeguardLoop arr sg pre left (n + 1)
            else .ok n
    else .ok n

/-- `highest_retained` (`c++/truncation.hpp:28-62`), given the costs of all
states of all subspaces. -/
def highestRetained (s : Settings K) (all : List K) : Except Err K :=
  match all with
  | [] => .error .assertFailed
  | a :: l =>
    let mn := l.foldl min a
    let mx := l.foldl max a
    if !s.floquet && decide (mn ≠ 0) then .error .assertFailed
    else if s.keepall then .ok mx
    else match nrkeep0 s all with
      | .error e => .error e
      | .ok nrkeep =>
        if all.length ≤ nrkeep then .ok mx
        else
          let pre := min all.length (max 1 nrkeep + (if s.safeguard > 0 then s.safeguardmax else 0))
          let arr := partialSort pre all
          let nrkeep1 := if s.safeguard > 0 then safeguardLoop arr s.safeguard pre s.safeguardmax nrkeep
                         else .ok nrkeep
          match nrkeep1 with
          | .error e => .error e
          | .ok n1 =>
            match clamp n1 1 all.length with
            | .error e => .error e
            | .ok n2 => readAt arr (n2 - 1)

/-- One subspace: the costs of the computed states in storage order
(`Values::c`, `c++/eigen.hpp:76`) and the dimension of its Hamiltonian
(`getdim`, `c++/eigen.hpp:354`). -/
structure Sub (K : Type) where
  crit : List K
  dim : Nat

/-- The number of states to keep in a subspace
(`c++/truncation.hpp:85-88`, `Eigen::truncate_prepare` `c++/eigen.hpp:379-382`).
`lastAll` is `step.last() && P.keep_all_states_in_last_step()`. -/
def keptCount (lastAll : Bool) (cmax : K) (sub : Sub K) : Nat :=
  if lastAll then sub.crit.length else sub.crit.countP (fun c => decide (c ≤ cmax))

/-- The condition for `NotEnough` (`c++/truncation.hpp:92-95`) in one subspace.
`highest_crit` of an empty spectrum is undefined. -/
def notEnough1 (lastAll : Bool) (cmax : K) (sub : Sub K) : Except Err Bool :=
  if keptCount lastAll cmax sub = sub.crit.length then
    match sub.crit.getLast? with
    | none => .error .undefinedBehaviour
    | some h => .ok (decide (h ≠ cmax) && decide (sub.crit.length < sub.dim))
  else .ok false

/-- `ranges::any_of`. -/
def notEnough (lastAll : Bool) (cmax : K) : List (Sub K) → Except Err Bool
  | [] => .ok false
  | s :: l =>
    match notEnough1 lastAll cmax s with
    | .error e => .error e
    | .ok true => .ok true
    | .ok false => notEnough lastAll cmax l

/-- What `truncate_prepare` leaves behind: the cutoff, the number of states kept
in each subspace, and whether `NotEnough` was thrown. -/
structure Prepared (K : Type) where
  cmax : K
  nrkept : List Nat
  notEnough : Bool
  deriving DecidableEq, Repr

/-- `truncate_prepare` (`c++/truncation.hpp:82-98`). -/
def truncatePrepare (s : Settings K) (lastAll : Bool) (subs : List (Sub K)) : Except Err (Prepared K) :=
  match highestRetained s (subs.flatMap Sub.crit) with
  | .error e => .error e
  | .ok cmax =>
    match notEnough lastAll cmax subs with
    | .error e => .error e
    | .ok b => .ok ⟨cmax, subs.map (keptCount lastAll cmax), b⟩

/-- `kept()` (`c++/eigen.hpp:366`): indices of the kept states. -/
def kept (nrpost : Nat) : List Nat := List.range nrpost

/-- `discarded()` (`c++/eigen.hpp:367`). -/
def discarded (nrpost nrcomputed : Nat) : List Nat :=
  (List.range (nrcomputed - nrpost)).map (nrpost + ·)

/-- `boundary()` (`c++/eigen.hpp:359`), `Krange`, `Drange` (`c++/eigen.hpp:370-371`). -/
def boundary (last : Bool) (nrkept : Nat) : Nat := if last then 0 else nrkept
def Krange (last : Bool) (nrkept : Nat) : List Nat := List.range (boundary last nrkept)
def Drange (last : Bool) (nrkept nrall : Nat) : List Nat :=
  (List.range (nrall - boundary last nrkept)).map (boundary last nrkept + ·)

/-! ## Removal of splittings (`c++/splitting.hpp`) -/

/-- `cluster_splitting` (`c++/splitting.hpp:16-23`): some two entries differ. -/
def clusterSplitting (cl : List K) : Bool :=
  match cl with
  | [] => false
  | a :: l => l.any (fun b => decide (a ≠ b)) || clusterSplitting l

/-- `unordered_map::insert`: does not overwrite. -/
def mapInsert (m : List (K × K)) (k v : K) : List (K × K) :=
  if m.any (fun p => decide (p.1 = k)) then m else (k, v) :: m

def mapFind (m : List (K × K)) (k : K) : Option K := (m.find? fun p => decide (p.1 = k)).map Prod.snd

/-- `process_cluster` (`c++/splitting.hpp:49-55`) for the cluster `cl`, in
increasing order. -/
def processCluster (m : List (K × K)) (cl : List K) : List (K × K) :=
  match cl with
  | [] => m
  | a :: l =>
    if decide (cl.length > 1) && clusterSplitting cl then
      l.foldl (fun m j => if j ≠ a then mapInsert m j a else m) m
    else m

/-- The scan (`c++/splitting.hpp:56-63`); `cur` is the current cluster
`[i0, i)` in increasing order, with `e0` its first element. -/
def scan (eps : K) : List K → K → List K → List (K × K) → List (K × K)
  | [], _, cur, m => processCluster m cur
  | x :: l, e0, cur, m =>
    if x - e0 ≥ eps then scan eps l x [x] (processCluster m cur)
    else scan eps l e0 (cur ++ [x]) m

/-- The constructor `Clusters` (`c++/splitting.hpp:43-64`): the mapping built
from the energies of all subspaces; `none` is the failed assertion. -/
def clusterMap (eps : K) (energies : List K) : Option (List (K × K)) :=
  match energies.insertionSort (· ≤ ·) with
  | [] => none
  | e :: l => some (scan eps l e [e] [])

/-- `fix_it` (`c++/splitting.hpp:31-41`) on one energy. -/
def fixOne (m : List (K × K)) (r : K) : K := (mapFind m r).getD r

/-- `Clusters` with `fix = true`: the corrected energies of all subspaces. -/
def fixSplittings (eps : K) (subs : List (List K)) : Option (List (List K)) := do
  let m ← clusterMap eps subs.flatten
  pure (subs.map fun v => v.map (fixOne m))

/-! ## Sorting eigenpairs -/

/-- A permutation delivered by `std::sort`/`std::stable_sort` of the indices
`0..n-1` with comparison `c[a] < c[b]`: a rearrangement of the indices along
which the keys do not decrease. `std::sort` leaves the order of equal keys
unspecified, so this is a relation. -/
def IsSortingPerm (c : List K) (p : List Nat) : Prop :=
  p.Perm (List.range c.length) ∧ p.Pairwise fun a b => ∀ x y, c[a]? = some x → c[b]? = some y → x ≤ y

/-- `w_sorted[i] = w[p[i]]`. -/
def applyPerm {α} (p : List Nat) (w : List α) : List α := p.filterMap fun i => w[i]?

/-- `perform_sort_by_c` (`c++/eigen.hpp:286-322`): costs, energies, corrected
energies, rows of the eigenvector matrix. -/
def performSortByC {ρ} (p : List Nat) (x : List K × List K × List K × List ρ) :
    List K × List K × List K × List ρ :=
  (applyPerm p x.1, applyPerm p x.2.1, applyPerm p x.2.2.1, applyPerm p x.2.2.2)

/-- `sort_eigenpairs_by_value` (`c++/diag.hpp:231-252`), with the flat array of
eigenvectors with stride `dim`. `p` is the sorting permutation of the first `M`
eigenvalues. `none`: failed assertion. -/
def sortEigenpairs {β} (p : List Nat) (vals : List K) (vecs : List β) (jobzV : Bool) (dim M : Nat) :
    Option (List K × List β) :=
  if vals.length < M then none
  else if M < 2 then some (vals, vecs)
  else if p = List.range M then some (vals, vecs)
  else
    let vals' := applyPerm p vals ++ vals.drop M
    if !jobzV then some (vals', vecs)
    else
      let sorted := (List.range M).flatMap fun r => (List.range dim).filterMap fun j =>
        (p[r]?).bind fun pr => vecs[dim * pr + j]?
      some (vals', sorted ++ vecs.drop (M * dim))

end Verif.Trunc
