import Verif.Config.Model
/-!
# Helper lemmas for the run structure
-/

namespace Verif.Config

theorem loopFrom_eq (nmax : Nat) : ∀ (fuel n : Nat), nmax ≤ n + fuel →
    loopFrom nmax fuel ⟨(n : Int), n⟩ = (List.range' n (nmax - n)).map fun k => ⟨(k : Int), k⟩ := by
  intro fuel
  induction fuel with
  | zero => intro n h; simp [loopFrom, Nat.sub_eq_zero_of_le (by omega : nmax ≤ n)]
  | succ f ih =>
    intro n h
    unfold loopFrom StepS.atEnd
    by_cases hn : nmax ≤ n
    · simp [hn]
    · have : nmax - n = (nmax - (n + 1)) + 1 := by omega
      rw [if_neg (by simpa using hn), this, List.range'_succ, List.map_cons]
      congr 1
      have := ih (n + 1) (by omega)
      simpa [StepS.next] using this

theorem visited_eq (ninit nmax : Nat) :
    visited ninit nmax = (List.range' ninit (nmax - ninit)).map fun k => ⟨(k : Int), k⟩ := by
  have : StepS.set (ninit : Int) = ⟨(ninit : Int), ninit⟩ := by
    unfold StepS.set; congr 1; omega
  unfold visited
  rw [this, loopFrom_eq _ _ _ (by omega)]

/-- Fault-free execution. -/
def run (fs : Files) : List Ev → Option Files
  | [] => some fs
  | e :: es => (act fs e).bind fun fs' => run fs' es

theorem run_append (fs : Files) (a b : List Ev) : run fs (a ++ b) = (run fs a).bind fun f => run f b := by
  induction a generalizing fs with
  | nil => rfl
  | cons e es ih =>
    simp only [List.cons_append, run]
    cases act fs e with
    | none => rfl
    | some f => exact ih f

theorem exec_noFail (i : Nat) (fs : Files) (p : List Ev) (fs' : Files) (h : run fs p = some fs') :
    exec (fun _ => false) i fs p = (p, some fs') := by
  induction p generalizing i fs with
  | nil => cases h; rfl
  | cons e es ih =>
    simp only [run] at h
    cases ha : act fs e with
    | none => rw [ha] at h; cases h
    | some f =>
      rw [ha] at h
      have := ih (i + 1) f h
      simp [exec, ha, this]

theorem exec_prefix (fails : Nat → Bool) (i : Nat) (fs : Files) (p : List Ev) :
    (exec fails i fs p).1 <+: p := by
  induction p generalizing i fs with
  | nil => simp [exec]
  | cons e es ih =>
    unfold exec
    split
    · simp
    · split
      · simp
      · exact (List.cons_prefix_cons).2 ⟨rfl, ih _ _⟩

theorem exec_complete (fails : Nat → Bool) (i : Nat) (fs : Files) (p : List Ev) :
    (exec fails i fs p).2.isSome ↔ (exec fails i fs p).1 = p := by
  induction p generalizing i fs with
  | nil => simp [exec]
  | cons e es ih =>
    unfold exec
    split
    · simp
    · split
      · simp
      · simpa using ih _ _

/-- Set a range of files. -/
def setFiles (fs : Files) (k : Kind) (v : Bool) (p : Nat → Prop) [DecidablePred p] : Files :=
  fun k' n' => if k' = k ∧ p n' then v else fs k' n'

theorem run_neutral (fs : Files) (e : Ev) (h : act fs e = some fs) (es : List Ev) :
    run fs (e :: es) = run fs es := by simp [run, h]

/-- The part of one step of the first sweep that touches files. -/
theorem run_measure_nrg (s : Sw) (fs : Files) (n : Nat) : run fs (measureEv s .nrg n) = some fs := by
  simp [measureEv, run, act]

theorem run_step_nrg (s : Sw) (fs : Files) (n : Nat) :
    run fs (stepEv s .nrg n) = some (if s.dm then setFiles fs .unitary true (· = n) else fs) := by
  unfold stepEv
  rw [run_append, run_append]
  cases hd : s.dm
  · simp only [Bool.false_eq_true, if_false, run, act, Option.bind_some]
    cases s.recalcAll .nrg <;> cases s.recalcKept .nrg <;> simp [run, run_measure_nrg]
  · simp only [if_true, run, act, Option.bind_some]
    cases s.recalcAll .nrg <;> cases s.recalcKept .nrg <;> simp only [run, run_measure_nrg, Bool.false_eq_true, if_false, if_true, Option.bind_some] <;> rfl

theorem run_steps_nrg (s : Sw) : ∀ (len start : Nat) (fs : Files),
    run fs ((List.range' start len).flatMap fun n => stepEv s .nrg n) =
      some (if s.dm then setFiles fs .unitary true (fun n => start ≤ n ∧ n < start + len) else fs) := by
  intro len
  induction len with
  | zero =>
    intro start fs
    simp only [List.range'_zero, List.flatMap_nil, run]
    congr 1
    cases s.dm
    · simp
    · simp only [if_true]
      funext k n
      simp only [setFiles]
      rw [if_neg (by omega)]
  | succ l ih =>
    intro start fs
    rw [List.range'_succ, List.flatMap_cons, run_append, run_step_nrg, Option.bind_some, ih]
    congr 1
    cases s.dm
    · simp
    · simp only [if_true]
      funext k n
      simp only [setFiles]
      by_cases hk : k = .unitary
      · by_cases h1 : start + 1 ≤ n ∧ n < start + 1 + l
        · rw [if_pos ⟨hk, h1⟩, if_pos ⟨hk, by omega⟩]
        · rw [if_neg (fun h => h1 h.2)]
          by_cases h2 : n = start
          · rw [if_pos ⟨hk, h2⟩, if_pos ⟨hk, by omega⟩]
          · rw [if_neg (fun h => h2 h.2), if_neg (by omega)]
      · simp [hk]

theorem flatMap_visited (ninit nmax : Nat) (f : Nat → List Ev) :
    (visited ninit nmax).flatMap (fun st => f st.ndx) =
      (List.range' ninit (nmax - ninit)).flatMap f := by
  rw [visited_eq, List.flatMap_map]

theorem run_sweep_nrg (s : Sw) (ninit nmax : Nat) (fs : Files) :
    run fs (sweepEv s ninit nmax .nrg) =
      some (if s.dm then setFiles fs .unitary true (fun n => ninit ≤ n ∧ n < ninit + (nmax - ninit)) else fs) := by
  unfold sweepEv
  rw [flatMap_visited ninit nmax (fun n => stepEv s .nrg n), run_append, run_append]
  have h0 : run fs (if Run.nrg = .nrg ∧ s.calc0 = true then [.calc0] else []) = some fs := by
    split <;> simp [run, act]
  rw [h0, Option.bind_some, run_steps_nrg, Option.bind_some]
  simp [run, act]

/-- The backward pass. -/
theorem run_backward (k : Kind) (hk : k ≠ .unitary) : ∀ (len start : Nat) (fs : Files),
    (∀ n, start ≤ n → n < start + len → fs .unitary n = true) → 1 ≤ start →
    run fs ((List.range' start len).reverse.flatMap fun n => [.load .unitary n, .save k (n - 1)]) =
      some (setFiles fs k true (fun n => start ≤ n + 1 ∧ n + 1 < start + len)) := by
  intro len
  induction len with
  | zero =>
    intro start fs _ _
    simp only [List.range'_zero, List.reverse_nil, List.flatMap_nil, run]
    congr 1
    funext k' n
    simp only [setFiles]
    rw [if_neg (by omega)]
  | succ l ih =>
    intro start fs h hs
    have hr : List.range' start (l + 1) = List.range' start l ++ [start + l] := by
      rw [List.range'_concat]; simp
    rw [hr, List.reverse_append, List.reverse_singleton, List.singleton_append, List.flatMap_cons, run_append]
    have h1 : run fs [.load .unitary (start + l), .save k (start + l - 1)] =
        some (setFiles fs k true (· = start + l - 1)) := by
      simp only [run, act, h (start + l) (by omega) (by omega), if_true, Option.bind_some]
      rfl
    rw [h1, Option.bind_some, ih start _ _ hs]
    · congr 1
      funext k' n
      simp only [setFiles]
      by_cases hk' : k' = k
      · by_cases h1 : start ≤ n + 1 ∧ n + 1 < start + l
        · rw [if_pos ⟨hk', h1⟩, if_pos ⟨hk', by omega⟩]
        · rw [if_neg (fun h => h1 h.2)]
          by_cases h2 : n = start + l - 1
          · rw [if_pos ⟨hk', h2⟩, if_pos ⟨hk', by omega⟩]
          · rw [if_neg (fun h => h2 h.2), if_neg (by omega)]
      · simp [hk']
    · intro n h1 h2
      simp only [setFiles]
      rw [if_neg (fun h => hk h.1.symm)]
      exact h n h1 (by omega)

theorem run_prepare (k : Kind) (hk : k ≠ .unitary) (ninit nmax : Nat) (hn : ninit < nmax) (fs : Files)
    (h : ∀ n, ninit ≤ n → n < nmax → fs .unitary n = true) :
    run fs (prepareEv k ninit nmax) = some (setFiles fs k true (fun n => ninit ≤ n ∧ n < nmax)) := by
  unfold prepareEv backward
  simp only [run, act, Option.bind_some]
  rw [run_backward k hk _ _ _ _ (by omega)]
  · congr 1
    funext k' n
    simp only [setFiles]
    by_cases hk' : k' = k
    · by_cases h1 : ninit + 1 ≤ n + 1 ∧ n + 1 < ninit + 1 + (nmax - 1 - ninit)
      · rw [if_pos ⟨hk', h1⟩, if_pos ⟨hk', by omega⟩]
      · rw [if_neg (fun h => h1 h.2)]
        by_cases h2 : n = nmax - 1
        · rw [if_pos ⟨hk', h2⟩, if_pos ⟨hk', by omega⟩]
        · rw [if_neg (fun h => h2 h.2), if_neg (by omega)]
    · simp [hk']
  · intro n h1 h2
    rw [if_neg (fun h => hk h.1.symm)]
    exact h n (by omega) (by omega)

/-- Files after loading one file. -/
def afterLoad (rm : Bool) (fs : Files) (k : Kind) (n : Nat) : Files :=
  if rm then setFiles fs k false (· = n) else fs

theorem run_load (rm : Bool) (fs : Files) (k : Kind) (n : Nat) (h : fs k n = true) :
    run fs (loadEv rm k n) = some (afterLoad rm fs k n) := by
  cases rm
  · simp [loadEv, run, act, h, afterLoad]
  · simp only [loadEv, run, act, h, afterLoad, if_true, Option.bind_some]
    rfl

/-- What the second sweep has read up to some point. -/
def readKind (s : Sw) : Kind → Bool
  | .unitary => true
  | .rho => s.needRho
  | .rhoFDM => s.needRhoFDM

/-- Files once the steps satisfying `p` have been processed by the second sweep. -/
def swept (s : Sw) (fs : Files) (p : Nat → Prop) [DecidablePred p] : Files :=
  fun k n => if s.removefiles = true ∧ readKind s k = true ∧ p n then false else fs k n

theorem recalc_one (s : Sw) (r : Run) (l : List Ev) :
    (if s.recalcAll r then l else []) ++ (if s.recalcKept r then l else []) = l := by
  unfold Sw.recalcAll
  cases s.recalcKept r <;> simp

theorem run_step_dmnrg (s : Sw) (fs : Files) (n : Nat)
    (h : ∀ k, readKind s k = true → fs k n = true) :
    run fs (stepEv s .dmnrg n) = some (swept s fs (· = n)) := by
  unfold stepEv
  rw [List.append_assoc, recalc_one, run_append]
  simp only
  rw [run_load _ _ _ _ (h .unitary rfl), Option.bind_some]
  unfold measureEv
  rw [if_pos rfl, run_append, run_append]
  have hr := h .rho
  have hf := h .rhoFDM
  simp only [readKind] at hr hf
  have key : ∀ g : Files, (some g).bind (fun f => run f [Ev.measure .dmnrg n]) = some g := fun g => by simp [run, act]
  cases h1 : s.needRho <;> cases h2 : s.needRhoFDM
  · simp only [Bool.false_eq_true, if_false, run, Option.bind_some, act]
    congr 1
    funext k m
    unfold swept afterLoad
    cases s.removefiles
    · simp
    · cases k <;> simp [setFiles, readKind, h1, h2]
  · simp only [Bool.false_eq_true, if_false, if_true]
    rw [show run (afterLoad s.removefiles fs .unitary n) [] = some (afterLoad s.removefiles fs .unitary n) from rfl,
      Option.bind_some, run_load, key]
    · congr 1
      funext k m
      unfold swept afterLoad
      cases s.removefiles
      · simp
      · cases k <;> simp [setFiles, readKind, h1, h2]
    · unfold afterLoad
      cases s.removefiles <;> simp [setFiles, hf h2]
  · simp only [Bool.false_eq_true, if_false, if_true]
    rw [run_load, Option.bind_some]
    · simp only [run, Option.bind_some, act]
      congr 1
      funext k m
      unfold swept afterLoad
      cases s.removefiles
      · simp
      · cases k <;> simp [setFiles, readKind, h1, h2]
    · unfold afterLoad
      cases s.removefiles <;> simp [setFiles, hr h1]
  · simp only [if_true]
    rw [run_load, Option.bind_some, run_load, key]
    · congr 1
      funext k m
      unfold swept afterLoad
      cases s.removefiles
      · simp
      · cases k <;> simp [setFiles, readKind, h1, h2]
    · unfold afterLoad
      cases s.removefiles <;> simp [setFiles, hf h2]
    · unfold afterLoad
      cases s.removefiles <;> simp [setFiles, hr h1]

theorem run_steps_dmnrg (s : Sw) : ∀ (len start : Nat) (fs : Files),
    (∀ k n, readKind s k = true → start ≤ n → n < start + len → fs k n = true) →
    run fs ((List.range' start len).flatMap fun n => stepEv s .dmnrg n) =
      some (swept s fs (fun n => start ≤ n ∧ n < start + len)) := by
  intro len
  induction len with
  | zero =>
    intro start fs _
    simp only [List.range'_zero, List.flatMap_nil, run]
    congr 1
    funext k n
    simp only [swept]
    rw [if_neg (by omega)]
  | succ l ih =>
    intro start fs h
    rw [List.range'_succ, List.flatMap_cons, run_append,
      run_step_dmnrg s fs start (fun k hk => h k start hk (by omega) (by omega)), Option.bind_some, ih]
    · congr 1
      funext k n
      simp only [swept]
      by_cases hk : s.removefiles = true ∧ readKind s k = true
      · by_cases h1 : start + 1 ≤ n ∧ n < start + 1 + l
        · rw [if_pos ⟨hk.1, hk.2, h1⟩, if_pos ⟨hk.1, hk.2, by omega⟩]
        · rw [if_neg (fun h => h1 h.2.2)]
          by_cases h2 : n = start
          · rw [if_pos ⟨hk.1, hk.2, h2⟩, if_pos ⟨hk.1, hk.2, by omega⟩]
          · rw [if_neg (fun h => h2 h.2.2), if_neg (by omega)]
      · rw [if_neg (fun h => hk ⟨h.1, h.2.1⟩), if_neg (fun h => hk ⟨h.1, h.2.1⟩), if_neg (fun h => hk ⟨h.1, h.2.1⟩)]
    · intro k n hk h1 h2
      simp only [swept]
      rw [if_neg (by omega)]
      exact h k n hk (by omega) (by omega)

end Verif.Config
