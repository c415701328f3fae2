import Verif.Symm.Classes
import Verif.Subspaces.Model
/-!
# Hopping and occupation terms of the Hamiltonian
(`c++/matrix.hpp`, `make_matrix` in `c++/symmetry/sym-*-impl.hpp`,
`recalc_irreduc` in `c++/symmetry/nrg-recalc-*.hpp`, `c++/recalc.hpp:68-112`)

What is modelled: which blocks of the new Hamiltonian are addressed by the table
entries, which irreducible matrices they look up, with which dimensions, and how
each look-up ends.  The numerical factors are not modelled here.
-/

namespace Verif.Hop
open Verif.Invar Verif.Symm Verif.Subspaces

/-- The macro of a hopping entry (`#define` lines of `sym-*-impl.hpp`, e.g.
`sym-U1-impl.hpp:63-95`).  `type1`, `type2`: `OFFDIAG_1`, `OFFDIAG_2` of
`sym-SU2-impl.hpp`, `sym-DBLSU2-impl.hpp`. -/
inductive Macro
  | offdiag | mix | up | down | updo | doup | crUp | crDo | anUp | anDo | type1 | type2 | anomalous
  deriving DecidableEq, Repr

/-- The entries `MACRO(i, j, ch, factor)` of one macro, channel and matrix index
`fnr`, in file order.  Indices are 1-based. -/
structure HopGroup where
  mac : Macro
  ch : Nat
  fnr : Nat
  pairs : List (Nat × Nat)
  deriving DecidableEq, Repr

/-- Which electrons an occupation entry counts (`DIAG`, `DIAG_UP`, `DIAG_DOWN`). -/
inductive SpinTag
  | both | up | down
  deriving DecidableEq, Repr

/-- The entries `DIAG(i, ch, number)` of one macro and channel, in file order:
`(i, 2 * number)`. -/
structure OccGroup where
  spin : SpinTag
  ch : Nat
  entries : List (Nat × Nat)
  deriving DecidableEq, Repr

/-- Which of the `make_matrix` functions of the class. -/
inductive Variant
  | plain | nonpolarized | polarized | pol2x2
  deriving DecidableEq, Repr

/-- The tables included in one `make_matrix` function.  Simplification: the
interleaving of the groups is dropped; all entries add to the matrix. -/
structure HamTable where
  variant : Variant
  hops : List HopGroup
  /-- Entries that lead to `diag_offdiag_function` (`c++/matrix.hpp:94-112`). -/
  siteHops : List (Nat × Nat)
  occupations : List OccGroup
  deriving DecidableEq, Repr

/-- One block `RECALC_F` of `recalc_irreduc` (e.g.
`c++/symmetry/nrg-recalc-QS.hpp:192-203`): the bra label is the ket label with
`shift` applied, the result is stored in `opch[ch][fnr]`, and the table of
`recalc_f` has the index pairs `rows` (1-based `i1`, `ip`). -/
structure FBlock where
  shift : Label
  ch : Nat
  fnr : Nat
  rows : List (Nat × Nat)
  deriving DecidableEq, Repr

/-- How a class guards `offdiag_function_impl`: the macro `offdiag_function`
(`c++/matrix.hpp:22-23`), `offdiag_function_QJ` (`sym-QJ-impl.hpp:86-94`),
`offdiag_qst` (`sym-QST-impl.hpp:126-128`), `offdiag_spsu2t`
(`sym-SPSU2T-impl.hpp:101-112`). -/
inductive Guard
  | plain | qj | qst | spsu2t
  deriving DecidableEq, Repr

/-- A symmetry class with its Hamiltonian and recalculation tables.  `invarF` is
`Invar_f` for the two classes that override `recalc_f_coupled`
(`sym-QST-impl.hpp:108-110`, `sym-SPSU2T-impl.hpp:82-84`). -/
structure Ham where
  builtin : Builtin
  blocks : List FBlock
  invarF : Option Label
  guard : Guard
  variants : List HamTable

/-- A stored irreducible matrix: `opch[ch][fnr][{bra, ket}]` and its dimensions. -/
structure FEntry where
  ch : Nat
  fnr : Nat
  bra : Label
  ket : Label
  rows : Nat
  cols : Nat
  deriving DecidableEq, Repr

/-- `recalc_f_coupled` (`c++/symmetry.hpp:240` and the two overrides). -/
def recalcFCoupled (H : Ham) (I1 Ip : Label) : Bool :=
  match H.invarF with
  | none => true
  | some f => triangle H.builtin.sym.fields I1 Ip f

/-- `have_stored_coupled_subspaces` (`c++/symmetry.hpp:242-251`). -/
def haveStored (H : Ham) (diag : Sizes) (I1 Ip : Label) : Bool :=
  recalcFCoupled H I1 Ip && (decide (0 < sizeSubspace diag I1) && decide (0 < sizeSubspace diag Ip))

/-- One `RECALC_F` block for one ket label (`c++/symmetry/nrg-recalc-QS.hpp:192-203`,
`c++/recalc.hpp:77-84`): the matrix is stored if both subspaces have stored states;
its dimensions are their numbers.  Simplification: the bra label, written as
`Invar(qp + 1, ssp + 1)` etc., is `combine shift Ip`. -/
def recalcBlock (H : Ham) (diag : Sizes) (Ip : Label) (b : FBlock) : Option (List FEntry) := do
  let I1 ← combine (types H.builtin.sym.fields) b.shift Ip
  pure (if haveStored H diag I1 Ip
    then [⟨b.ch, b.fnr, I1, Ip, sizeSubspace diag I1, sizeSubspace diag Ip⟩] else [])

/-- `recalc_irreduc` (`c++/symmetry/nrg-recalc-QS.hpp:182-` and the other
classes): all blocks for all labels in `diag`. -/
def recalcIrreduc (H : Ham) (diag : Sizes) : Option (List FEntry) := do
  let l ← diag.mapM fun p => do
    let m ← H.blocks.mapM (recalcBlock H diag p.1)
    pure m.flatten
  pure l.flatten

/-- `MatrixElements::find({bra, ket})` in `opch[ch][fnr]`. -/
def findF (opch : List FEntry) (ch fnr : Nat) (bra ket : Label) : Option FEntry :=
  opch.find? fun e => e.ch == ch && e.fnr == fnr && e.bra == bra && e.ket == ket

/-- How the processing of one hopping entry ends. -/
inductive HopOutcome
  /-- one of the two blocks is empty: nothing is added -/
  | skipped
  /-- a matrix of the given dimensions is added to block `(i, j)` -/
  | added (rows cols : Nat)
  /-- a failed `my_assert`: exception -/
  | assertFailed
  /-- exception `offdiag_function(): matrix not found` -/
  | notFound
  /-- access beyond the end of a vector: undefined behaviour -/
  | outOfBounds
  deriving DecidableEq, Repr

/-- `offdiag_function_impl`, `c++/matrix.hpp:36-62`.  `anc` are the ancestors
(`In_`), `dims` the block sizes (`qq`).  The finiteness test of the factor is not
modelled. -/
def offdiagImpl (opch : List FEntry) (anc : List Label) (dims : Dims) (i j ch fnr : Nat) : HopOutcome :=
  if 1 ≤ i ∧ i ≤ dims.length ∧ 1 ≤ j ∧ j ≤ dims.length then
    match anc[i - 1]?, anc[j - 1]?, dims[i - 1]?, dims[j - 1]? with
    | some a, some b, some m, some n =>
      match findF opch ch fnr a b with
      | some e => if m = e.rows ∧ n = e.cols then .added m n else .assertFailed
      | none => .notFound
    | _, _, _, _ => .outOfBounds
  else .assertFailed

/-- The macro `offdiag_function`, `c++/matrix.hpp:22-23`. -/
def offdiagFunction (opch : List FEntry) (anc : List Label) (dims : Dims) (i j ch fnr : Nat) : HopOutcome :=
  match offdiagContributes dims i j with
  | none => .assertFailed
  | some false => .skipped
  | some true => offdiagImpl opch anc dims i j ch fnr

/-- `offdiag_function_QJ`, `sym-QJ-impl.hpp:86-94`: a coupling test on
`In[i]`, `In[j]` — with the 1-based `i`, `j` — before `offdiag_function`. -/
def offdiagQJ (fs : List Field) (opch : List FEntry) (anc : List Label) (dims : Dims)
    (i j ch fnr : Nat) : HopOutcome :=
  match anc[i]?, anc[j]? with
  | some a, some b =>
    if triangle fs a b (if ch = 0 then [1, 2] else [1, 4]) then
      offdiagFunction opch anc dims i j ch fnr
    else .skipped
  | _, _ => .outOfBounds

/-- `offdiag_qst`, `sym-QST-impl.hpp:113-128`.  `nonzero` stands for the test
`!qst_exception(i, j, I) && std::abs(factor) > 0.0`. -/
def offdiagQST (nonzero : Bool) (opch : List FEntry) (anc : List Label) (dims : Dims)
    (i j ch fnr : Nat) : HopOutcome :=
  match offdiagContributes dims i j with
  | none => .assertFailed
  | some false => .skipped
  | some true => if nonzero then offdiagImpl opch anc dims i j ch fnr else .skipped

/-- One hopping entry of a class.  `offdiag_spsu2t` (`sym-SPSU2T-impl.hpp:101-112`)
replaces the factor by 0 in the exceptional cases but calls
`offdiag_function_impl` all the same; anomalous entries of every class use the
plain macro. -/
def hopEntry (H : Ham) (nonzero : Bool) (opch : List FEntry) (anc : List Label) (dims : Dims)
    (g : HopGroup) (p : Nat × Nat) : HopOutcome :=
  match H.guard with
  | .plain | .spsu2t => offdiagFunction opch anc dims p.1 p.2 g.ch g.fnr
  | .qj => offdiagQJ H.builtin.sym.fields opch anc dims p.1 p.2 g.ch g.fnr
  | .qst => offdiagQST nonzero opch anc dims p.1 p.2 g.ch g.fnr

/-- `diag_offdiag_function`, `c++/matrix.hpp:94-112`: an entry that adds a
multiple of the identity to block `(i, j)`. -/
def siteHop (dims : Dims) (i j : Nat) : HopOutcome :=
  if 1 ≤ i ∧ i ≤ dims.length ∧ 1 ≤ j ∧ j ≤ dims.length then
    if i > j then .skipped
    else
      match dims[i - 1]?, dims[j - 1]? with
      | some m, some n =>
        if m > 0 ∧ n > 0 then (if m = n then .added m n else .assertFailed) else .skipped
      | _, _ => .outOfBounds
  else .assertFailed

/-- `P.perchannel`, `c++/params.hpp:575-581`. -/
def perchannel (symtype : String) : Nat :=
  if symtype = "U1" ∨ symtype = "SU2" ∨ symtype = "DBLSU2" then 2
  else if symtype = "NONE" ∨ symtype = "P" ∨ symtype = "PP" then 4
  else 1

end Verif.Hop
