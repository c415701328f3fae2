import Verif.Raw.Props
/-!
# A restarted step ends the run when the Hamiltonian is stored (C137)

`core.hpp:96-101` stores the matrices while they are set up, inside the loop of `do_diag` that starts again when too few states were computed. The second round
writes to names that exist.
-/

namespace Verif.Raw
open Verif.Text
open Verif.Invar (Label)

variable {V : Type}

/-- The proved part: the file is completed exactly if no stored step sets up a subspace twice while the Hamiltonian is stored. -/
theorem raw_file_partial {r : Run V} (h : RunOK r) : (∃ f, r.file = some f) ↔ r.Once := by
  constructor
  · rintro ⟨f, hf⟩
    exact (run_nodup h).1 ((dumpAll_named (run_ok h) f).1 hf).1
  · intro ho
    obtain ⟨f, hf, -⟩ := raw_complete h ho
    exact ⟨f, hf⟩

/-- A stored step that is diagonalised again ends the run with an exception when `h5ham` is set. -/
theorem restart_ends_run {r : Run V} (h : RunOK r) (hh : r.switches.ham = true) (hr : r.nrg = true) {i : Nat} {s : StepData V}
    (hs : r.steps[i]? = some s) (hi : r.Stored i) {x y : List (Label × Mat V)} {l : List (List (Label × Mat V))} (hxy : s.rounds = x :: y :: l)
    {I : Label} {m m' : Mat V} (hx : (I, m) ∈ x) (hy : (I, m') ∈ y) : r.file = none := by
  cases hf : r.file with
  | none => rfl
  | some f =>
    exfalso
    have := (raw_file_partial h).1 ⟨f, hf⟩ hh hr i s hs hi
    rw [hxy, List.flatten_cons, List.flatten_cons, List.map_append, List.nodup_append] at this
    refine this.2.2 I (List.mem_map.2 ⟨_, hx, rfl⟩) I (List.mem_map.2 ⟨(I, m'), ?_, rfl⟩) rfl
    exact List.mem_append_left _ hy

/-! ## An example -/

/-- A step with two subspaces that is diagonalised as often as `rounds` says. -/
def exStep (rounds : Nat) : StepData Nat where
  struct := [([0, 1], 6), ([1, 2], 7)]
  rounds := List.replicate rounds [([0, 1], (8, some 9)), ([1, 2], (10, none))]
  diag := [([0, 1], fun l => if l = .orig then some 11 else none), ([1, 2], fun l => if l = .matrix then some 12 else none)]
  blocks := [([0, 1], [([0, 0], (13, none)), ([0, 0], (14, none))])]
  ops := fun c => if c = .s then [("n_d".toList, [(([0, 1], [0, 1]), (15, none))])] else []

/-- A run with this step. -/
def exRun (ham : Bool) (rounds : Nat) : Run Nat where
  switches := { all := true, last := true, ham := ham, ops := true, vectors := true, U := true, struct := true }
  Ninit := 0
  params := [("Lambda".toList, 1), ("Nmax".toList, 2)]
  diag := [([0, 1], fun l => if l = .orig then some 3 else if l = .nrkept then some 4 else none)]
  ops := fun c => if c = .d then [("d".toList, [(([0, 1], [1, 2]), (5, none))])] else []
  steps := [exStep rounds]
  final := .inl { gs := 16, stats := [fun _ => 17], expv := [("n_d".toList, 18)], total := 19, range := 20, one := 1, store := [[([0, 1], fun _ => 21)]] }

theorem exStep_ok (rounds : Nat) : StepOK (exStep rounds) := by
  have hs : Labels (exStep 1).struct := ⟨by decide, by decide⟩
  have hd : Labels (exStep 1).diag := ⟨by decide, by decide⟩
  have hb : Labels (exStep 1).blocks := ⟨by decide, by decide⟩
  have ho : OpsOK (exStep 1).ops := by
    intro c
    cases c <;> exact ⟨⟨by decide, by decide⟩, by decide⟩
  refine ⟨hs, ?_, hd, hb, ho⟩
  intro x hx
  rw [List.eq_of_mem_replicate hx]
  exact ⟨by decide, by decide⟩

theorem exRun_ok (ham : Bool) (rounds : Nat) : RunOK (exRun ham rounds) := by
  have hp : Names (exRun true 1).params := ⟨by decide, by decide⟩
  have hd : Labels (exRun true 1).diag := ⟨by decide, by decide⟩
  have ho : OpsOK (exRun true 1).ops := by
    intro c
    cases c <;> exact ⟨⟨by decide, by decide⟩, by decide⟩
  refine ⟨hp, hd, ho, ?_, ⟨⟨by decide, by decide⟩, ?_⟩⟩
  · intro s hs
    rw [List.mem_singleton.1 hs]
    exact exStep_ok rounds
  · intro s hs
    rw [List.mem_singleton.1 hs]
    exact ⟨by decide, by decide⟩

/-- Without restart the file is complete; the matrix of the first subspace is found. -/
example : ∃ f, (exRun true 1).file = some f ∧ get f (path (.ham 1 [0, 1] false)) = some 8 ∧ get f (path (.ham 1 [0, 1] true)) = some 9 ∧
    get f "expv/n_d".toList = some 18 ∧ get f "1/U/0_1/0_0|nr=1".toList = some 14 ∧ get f "1/eigen//1_2/matrix".toList = some 12 := by
  obtain ⟨f, hf, hg, -⟩ := raw_complete (exRun_ok true 1) (once_of_one_round (exRun_ok true 1) (by simp [exRun, exStep]))
  refine ⟨f, hf, ?_, ?_, ?_, ?_, ?_⟩
  · exact hg _ _ (.step (i := 0) rfl (.inl rfl) (.ham (e := ([0, 1], (8, some 9))) rfl rfl (List.mem_singleton.2 rfl) List.mem_cons_self rfl))
  · exact hg _ _ (.step (i := 0) rfl (.inl rfl) (.ham (e := ([0, 1], (8, some 9))) (im := true) rfl rfl (List.mem_singleton.2 rfl) List.mem_cons_self rfl))
  · exact hg (.expv "n_d".toList) _ (.expv (r := exRun true 1) (e := ("n_d".toList, 18)) rfl (List.mem_singleton.2 rfl))
  · have := hg (.block 1 [0, 1] 1 [0, 0] false) 14 (.step (i := 0) rfl (.inl rfl)
      (.block (e := ([0, 1], [([0, 0], (13, none)), ([0, 0], (14, none))])) (k := 1) (b := ([0, 0], (14, none))) rfl rfl List.mem_cons_self rfl rfl))
    exact (by decide +kernel : "1/U/0_1/0_0|nr=1".toList = path (.block 1 [0, 1] 1 [0, 0] false)) ▸ this
  · have := hg (.eigen 1 [1, 2] .matrix) 12 (.step (i := 0) rfl (.inl rfl)
      (.eigen (e := ([1, 2], fun l => if l = .matrix then some 12 else none)) rfl (.inl rfl) (List.mem_cons_of_mem _ List.mem_cons_self) rfl))
    exact (by decide +kernel : "1/eigen//1_2/matrix".toList = path (.eigen 1 [1, 2] .matrix)) ▸ this

/-- With `h5ham` the same run with one restart ends with an exception; nothing of the end of the run is stored. -/
theorem restart_example : RunOK (exRun true 2) ∧ (exRun true 2).file = none :=
  ⟨exRun_ok true 2, restart_ends_run (i := 0) (x := [([0, 1], (8, some 9)), ([1, 2], (10, none))]) (exRun_ok true 2) rfl rfl rfl (.inl rfl) rfl
    (I := [0, 1]) List.mem_cons_self List.mem_cons_self⟩

/-- Without `h5ham` the restart does no harm. -/
example : ∃ f, (exRun false 2).file = some f := (raw_file_partial (exRun_ok false 2)).2 fun h => by cases h

/-- Names with a slash: two different expectation values cannot both be stored. -/
theorem slash_in_name : dumpAll ([] : File Nat) [(path (.expv "n".toList), 1), (path (.expv "n/2".toList), 2)] = none ∧
    dumpAll ([] : File Nat) [(path (.expv "n/2".toList), 1), (path (.expv "n//2".toList), 2)] = none := by decide +kernel

end Verif.Raw
