import Verif.Raw.Model
/-! # What is assumed about a run, and what the file should contain -/

namespace Verif.Raw
open Verif.Text
open Verif.Invar (Label)

variable {V : Type}

/-- A name that can be a component of a path: not empty and without slash. -/
def Comp (s : Str) : Prop := s ≠ [] ∧ '/' ∉ s

instance (s : Str) : Decidable (Comp s) := by unfold Comp; infer_instance

/-- A table whose keys are distinct labels with at least one quantum number. -/
def Labels {α : Type} (l : List (Label × α)) : Prop := (l.map Prod.fst).Nodup ∧ ∀ e ∈ l, e.1 ≠ []

/-- A table whose keys are distinct usable names. -/
def Names {α : Type} (l : List (Str × α)) : Prop := (l.map Prod.fst).Nodup ∧ ∀ e ∈ l, Comp e.1

/-- The tables of operators. -/
def OpsOK (o : Ops V) : Prop := ∀ c, Names (o c) ∧ ∀ e ∈ o c, (e.2.map Prod.fst).Nodup ∧ ∀ m ∈ e.2, m.1.1 ≠ [] ∧ m.1.2 ≠ []

/-- The tables of a step; of the rounds of the diagonalisation only that each is a table of labels. -/
structure StepOK (s : StepData V) : Prop where
  struct : Labels s.struct
  rounds : ∀ r ∈ s.rounds, Labels r
  diag : Labels s.diag
  blocks : Labels s.blocks
  ops : OpsOK s.ops

/-- What is stored at the end. -/
def FinalOK : Final V ⊕ Option (FinalDm V) → Prop
  | .inl f => Names f.expv ∧ ∀ s ∈ f.store, Labels s
  | .inr (some f) => Names f.expv
  | .inr none => True

/-- The tables of a run: all of them are maps in the program, thus their keys are distinct. -/
structure RunOK (r : Run V) : Prop where
  params : Names r.params
  diag : Labels r.diag
  ops : OpsOK r.ops
  steps : ∀ s ∈ r.steps, StepOK s
  final : FinalOK r.final

/-- Is the step with the index `i` stored? -/
def Run.Stored (r : Run V) (i : Nat) : Prop := r.switches.all = true ∨ (r.switches.last = true ∧ i + 1 = r.steps.length)

/-- No matrix of the Hamiltonian is to be stored twice: in no stored step is the same subspace set up in two rounds. -/
def Run.Once (r : Run V) : Prop :=
  r.switches.ham = true → r.nrg = true → ∀ i s, r.steps[i]? = some s → r.Stored i → (s.rounds.flatten.map Prod.fst).Nodup

/-! ## The contents -/

/-- The data sets of a matrix. -/
def MatPart (m : Mat V) (im : Bool) (v : V) : Prop := if im then m.2 = some v else v = m.1

/-- The data sets of a stored step with the number `n`. -/
inductive StepItem (h : Switches) (nrg : Bool) (n : Nat) (s : StepData V) : Addr → V → Prop
  | struct {e : Label × V} : h.struct = true → e ∈ s.struct → StepItem h nrg n s (.struct n e.1) e.2
  | ham {r : List (Label × Mat V)} {e : Label × Mat V} {im : Bool} {v : V} : h.ham = true → nrg = true → r ∈ s.rounds → e ∈ r → MatPart e.2 im v →
      StepItem h nrg n s (.ham n e.1 im) v
  | eigen {e : Label × (Leaf → Option V)} {l : Leaf} {v : V} : nrg = true → (h.vectors = true ∨ (l ≠ .matrix ∧ l ≠ .matrixImag)) → e ∈ s.diag →
      e.2 l = some v → StepItem h nrg n s (.eigen n e.1 l) v
  | block {e : Label × List (Label × Mat V)} {k : Nat} {b : Label × Mat V} {im : Bool} {v : V} : nrg = true → h.U = true → e ∈ s.blocks →
      e.2[k]? = some b → MatPart b.2 im v → StepItem h nrg n s (.block n e.1 k b.1 im) v
  | op {c : Cat} {e : Str × List ((Label × Label) × Mat V)} {I J : Label} {m : Mat V} {im : Bool} {v : V} : h.ops = true → e ∈ s.ops c →
      ((I, J), m) ∈ e.2 → MatPart m im v → StepItem h nrg n s (.op n c e.1 I J im) v

/-- The data sets of a run. -/
inductive Item (r : Run V) : Addr → V → Prop
  | param {e : Str × V} : e ∈ r.params → Item r (.param e.1) e.2
  | eigen {e : Label × (Leaf → Option V)} {l : Leaf} {v : V} : r.switches.all = true → e ∈ r.diag → e.2 l = some v → Item r (.eigen r.Ninit e.1 l) v
  | op {c : Cat} {e : Str × List ((Label × Label) × Mat V)} {I J : Label} {m : Mat V} {im : Bool} {v : V} : r.switches.all = true → e ∈ r.ops c →
      ((I, J), m) ∈ e.2 → MatPart m im v → Item r (.op r.Ninit c e.1 I J im) v
  | step {i : Nat} {s : StepData V} {a : Addr} {v : V} : r.steps[i]? = some s → r.Stored i →
      StepItem r.switches r.nrg (r.Ninit + i + 1) s a v → Item r a v
  | gs {f : Final V} : r.final = .inl f → Item r .gs f.gs
  | stat {f : Final V} {i : Nat} {s : Stat → V} {l : Stat} : r.final = .inl f → f.stats[i]? = some s → Item r (.stat (r.Ninit + i + 1) l) (s l)
  | expv {f : Final V} {e : Str × V} : r.final = .inl f → e ∈ f.expv → Item r (.expv e.1) e.2
  | total {f : Final V} : r.final = .inl f → Item r .total f.total
  | range {f : Final V} : r.final = .inl f → r.switches.all = true → Item r .range f.range
  | list {f : Final V} {i : Nat} {s : List (Label × (Sub → V))} {e : Label × (Sub → V)} : r.final = .inl f → r.switches.all = true →
      f.store[i]? = some s → e ∈ s → Item r (.list (r.Ninit + i + 1) e.1) f.one
  | data {f : Final V} {i : Nat} {s : List (Label × (Sub → V))} {e : Label × (Sub → V)} {l : Sub} : r.final = .inl f → r.switches.all = true →
      f.store[i]? = some s → e ∈ s → Item r (.data (r.Ninit + i + 1) e.1 l) (e.2 l)
  | fdm {f : FinalDm V} {l : Fdm} : r.final = .inr (some f) → Item r (.fdm l) (f.values l)
  | fdmExpv {f : FinalDm V} {e : Str × V} : r.final = .inr (some f) → e ∈ f.expv → Item r (.fdmExpv e.1) e.2

end Verif.Raw
