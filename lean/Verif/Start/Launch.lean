import Verif.Start.Model
/-!
# Starting and stopping together
-/

namespace Verif.Start
open Verif.Text (Str)

/-! ## The decision -/

/-- **C108.** What the first process decides: help is given for `-h` as the first argument and ends the program with success, otherwise a missing input file ends it with
failure, otherwise it goes on; nothing else on the command line matters. -/
theorem decision_spec (args : List Str) (data param : Bool) :
    (decision args data param = some 0 ↔ ∃ rest, args = "-h".toList :: rest) ∧
    (decision args data param = some 1 ↔ (¬ ∃ rest, args = "-h".toList :: rest) ∧ (data = false ∨ param = false)) ∧
    (decision args data param = none ↔ (¬ ∃ rest, args = "-h".toList :: rest) ∧ data = true ∧ param = true) := by
  have h : wantsHelp args = true ↔ ∃ rest, args = "-h".toList :: rest := by
    cases args with
    | nil => simp [wantsHelp]
    | cons a l => simp only [wantsHelp, beq_iff_eq, List.cons.injEq, exists_and_left, exists_eq', and_true]
  rw [← h]
  unfold decision
  cases wantsHelp args <;> cases data <;> cases param <;> simp

example : decision ["-w".toList, "/tmp".toList] true true = none ∧ decision ["-h".toList] false true = some 0 ∧
    decision ["-w".toList, "-h".toList] true false = some 1 := by decide

/-- **C108.** The scratch directory: given with `-w` if this and the directory are the only arguments, otherwise taken from the variable, otherwise the current
directory. -/
theorem scratch_spec (env : Option Str) (args : List Str) :
    (∀ d, args = ["-w".toList, d] → scratchOf env args = d) ∧
    ((∀ d, args ≠ ["-w".toList, d]) → ∀ e, env = some e → scratchOf env args = e) ∧
    ((∀ d, args ≠ ["-w".toList, d]) → env = none → scratchOf env args = ".".toList) := by
  have hno : (∀ d, args ≠ ["-w".toList, d]) → scratchOf env args = env.getD ['.'] := by
    intro h
    match args, h with
    | [], _ => rfl
    | [_], _ => rfl
    | [a, d], h =>
      exact if_neg (fun ha => h d (by rw [ha]))
    | _ :: _ :: _ :: _, _ => rfl
  refine ⟨?_, ?_, ?_⟩
  · rintro d rfl; rfl
  · rintro h e rfl; exact hno h
  · rintro h rfl; exact hno h

/-- **C108.** The same for programs that use the library: the argument unless it is empty, then the variable, then the current directory. -/
theorem scratch_embedded (env : Option Str) (d : Str) :
    (d ≠ [] → scratchEmbedded env d = d) ∧ (∀ e, env = some e → scratchEmbedded env [] = e) ∧ scratchEmbedded none [] = ".".toList := by
  refine ⟨fun h => if_pos h, ?_, rfl⟩
  rintro e rfl; rfl

/-- **C109.** `-w` with a further argument is ignored without a message, and a variable set to the empty string selects the root directory. -/
theorem scratch_surprises (d x : Str) :
    scratchOf none ["-w".toList, d, x] = ".".toList ∧ scratchOf none [x, "-w".toList, d] = ".".toList ∧
    (∀ six, workName (scratchOf (some []) []) six = '/' :: six) ∧ decision [x, "-h".toList] true true = (if x = "-h".toList then some 0 else none) := by
  refine ⟨rfl, rfl, fun _ => rfl, ?_⟩
  unfold decision wantsHelp
  by_cases h : x = "-h".toList <;> simp [h]

/-! ## The processes -/

variable {n : Nat} {sync : Bool} {ok : Nat → Bool} {dec : Option Nat}

instance : Decidable (∃ q, 1 ≤ q ∧ q ≤ n ∧ ok q = false) :=
  decidable_of_iff (∃ q, q < n + 1 ∧ (1 ≤ q ∧ ok q = false))
    ⟨fun ⟨q, h1, h2, h3⟩ => ⟨q, h2, by omega, h3⟩, fun ⟨q, h1, h2, h3⟩ => ⟨q, by omega, h1, h3⟩⟩

/-- Where process `r` ends up. -/
def finalPh (n : Nat) (sync : Bool) (ok : Nat → Bool) (dec : Option Nat) (r : Nat) : Ph :=
  if ok r = false then .failed
  else if r = 0 then (if sync = true ∧ ∃ q, 1 ≤ q ∧ q ≤ n ∧ ok q = false then .bcast else after dec)
  else if ok 0 = true then after dec else .bcast

theorem after_ne (dec : Option Nat) : after dec ≠ .start ∧ after dec ≠ .bcast ∧ after dec ≠ .failed := by
  cases dec <;> simp [after]

theorem to_self (s : L) (r : Nat) (p : Ph) : (s.to r p).ph r = p := by simp [L.to]

theorem to_other (s : L) {r q : Nat} (p : Ph) (h : q ≠ r) : (s.to r p).ph q = s.ph q := by simp [L.to, h]

theorem to_sent (s : L) (r : Nat) (p : Ph) : (s.to r p).sent = (s.sent || (r == 0 && p == .bcast)) := rfl

/-- What holds in every state that can be reached. -/
structure Good (n : Nat) (sync : Bool) (ok : Nat → Bool) (dec : Option Nat) (s : L) : Prop where
  out : ∀ r, n < r → s.ph r = .start
  fail : ∀ r, s.ph r = .failed → ok r = false
  pass : ∀ r, s.ph r ≠ .start → s.ph r ≠ .failed → ok r = true
  cases : ∀ r, s.ph r = .start ∨ s.ph r = .failed ∨ s.ph r = .bcast ∨ s.ph r = after dec
  sent : s.sent = true ↔ (s.ph 0 = .bcast ∨ s.ph 0 = after dec)
  got : ∀ r, s.ph r = after dec → ok 0 = true
  sync : sync = true → s.ph 0 = after dec → ∀ r, 1 ≤ r → r ≤ n → s.ph r = after dec

theorem good_init : Good n sync ok dec L.init := by
  have ha := after_ne dec
  refine ⟨fun _ _ => rfl, fun r h => by simp [L.init] at h, fun r h => absurd rfl h, fun r => Or.inl rfl, ?_, ?_, ?_⟩
  · simp only [L.init, Bool.false_eq_true, reduceCtorEq, false_or, false_iff]
    exact fun h => ha.1 h.symm
  · intro r h; exact absurd h.symm ha.1
  · intro _ h; exact absurd h.symm ha.1

theorem good_to {s : L} (g : Good n sync ok dec s) (r : Nat) (p : Ph) (hr : r ≤ n) (hp : p = .failed ∨ p = .bcast ∨ p = after dec)
    (hstart : s.ph r ≠ after dec)
    (hf : p = .failed → ok r = false) (hb : p ≠ .failed → ok r = true) (h0 : r = 0 → p = .failed → s.ph 0 = .start)
    (hrecv : p = after dec → ok 0 = true)
    (hz : r = 0 → p = after dec → sync = true → ∀ q, 1 ≤ q → q ≤ n → s.ph q = after dec)
    (hs0 : r = 0 → p = after dec → s.ph 0 = .bcast) : Good n sync ok dec (s.to r p) := by
  have ha := after_ne dec
  have hpne : p ≠ .start := by
    rcases hp with rfl | rfl | rfl
    · simp
    · simp
    · exact ha.1
  refine ⟨?_, ?_, ?_, ?_, ?_, ?_, ?_⟩
  · intro q hq; rw [to_other s p (by omega)]; exact g.out q hq
  · intro q h
    by_cases hq : q = r
    · subst hq; rw [to_self] at h; exact hf h
    · rw [to_other s p hq] at h; exact g.fail q h
  · intro q h1 h2
    by_cases hq : q = r
    · subst hq; rw [to_self] at h2; exact hb h2
    · rw [to_other s p hq] at h1 h2; exact g.pass q h1 h2
  · intro q
    by_cases hq : q = r
    · subst hq; rw [to_self]; exact Or.inr hp
    · rw [to_other s p hq]; exact g.cases q
  · rw [to_sent]
    by_cases hr0 : r = 0
    · subst hr0
      rw [to_self]
      rcases hp with rfl | rfl | rfl
      · have := h0 rfl rfl
        have hs : s.sent = false := by
          cases hs : s.sent
          · rfl
          · rcases g.sent.mp hs with h | h
            · rw [this] at h; exact absurd h (by simp)
            · rw [this] at h; exact absurd h.symm ha.1
        rw [hs]
        simp only [beq_self_eq_true, Bool.true_and, Bool.false_or, beq_iff_eq, reduceCtorEq, false_or, false_iff]
        exact fun h => ha.2.2 h.symm
      · simp
      · have := g.sent.mpr (Or.inl (hs0 rfl rfl))
        rw [this]; simp
    · have : (r == 0) = false := by simpa using hr0
      rw [this, Bool.false_and, Bool.or_false, to_other s p (Ne.symm hr0)]
      exact g.sent
  · intro q h
    by_cases hq : q = r
    · subst hq; rw [to_self] at h; exact hrecv h
    · rw [to_other s p hq] at h; exact g.got q h
  · intro hsy h q h1 h2
    by_cases hr0 : r = 0
    · subst hr0
      rw [to_self] at h
      rw [to_other s p (by omega)]
      exact hz rfl h hsy q h1 h2
    · rw [to_other s p (Ne.symm hr0)] at h
      by_cases hq : q = r
      · subst hq
        exact absurd (g.sync hsy h q h1 h2) hstart
      · rw [to_other s p hq]; exact g.sync hsy h q h1 h2

theorem good_step {s t : L} (g : Good n sync ok dec s) (h : Step n sync ok dec s t) : Good n sync ok dec t := by
  have ha := after_ne dec
  cases h with
  | fail r hr hs hk =>
    exact good_to g r _ hr (Or.inl rfl) (by rw [hs]; exact Ne.symm ha.1) (fun _ => hk) (fun h => absurd rfl h) (fun h _ => h ▸ hs)
      (fun h => absurd h.symm ha.2.2) (fun _ h => absurd h.symm ha.2.2) (fun _ h => absurd h.symm ha.2.2)
  | pass r hr hs hk =>
    exact good_to g r _ hr (Or.inr (Or.inl rfl)) (by rw [hs]; exact Ne.symm ha.1) (fun h => absurd h (by simp)) (fun _ => hk)
      (fun _ h => absurd h (by simp)) (fun h => absurd h.symm ha.2.1) (fun _ h => absurd h.symm ha.2.1) (fun _ h => absurd h.symm ha.2.1)
  | recv r h1 hr hs hsent =>
    refine good_to g r _ hr (Or.inr (Or.inr rfl)) (by rw [hs]; exact Ne.symm ha.2.1) (fun h => absurd h ha.2.2)
      (fun _ => g.pass r (by rw [hs]; simp) (by rw [hs]; simp)) (fun h => absurd h (by omega)) (fun _ => ?_) (fun h => absurd h (by omega))
      (fun h => absurd h (by omega))
    rcases g.sent.mp hsent with h | h
    · exact g.pass 0 (by rw [h]; simp) (by rw [h]; simp)
    · exact g.got 0 h
  | root hs hsy =>
    exact good_to g 0 _ (Nat.zero_le _) (Or.inr (Or.inr rfl)) (by rw [hs]; exact Ne.symm ha.2.1) (fun h => absurd h ha.2.2)
      (fun _ => g.pass 0 (by rw [hs]; simp) (by rw [hs]; simp)) (fun _ h => absurd h ha.2.2)
      (fun _ => g.pass 0 (by rw [hs]; simp) (by rw [hs]; simp)) (fun _ _ h => hsy h) (fun _ _ => hs)

theorem good_steps {k : Nat} {s : L} (h : Steps n sync ok dec k s) : Good n sync ok dec s := by
  induction h with
  | zero => exact good_init
  | succ _ h ih => exact good_step ih h

/-- **C108, C109.** When no process can move any more, every process is where `finalPh` says, for any order of the steps. -/
theorem launch_final {k : Nat} {s : L} (h : Steps n sync ok dec k s) (hend : ∀ t, ¬ Step n sync ok dec s t) (r : Nat) (hr : r ≤ n) :
    s.ph r = finalPh n sync ok dec r := by
  have g := good_steps h
  have ha := after_ne dec
  have nostart : ∀ q, q ≤ n → s.ph q ≠ .start := by
    intro q hq hs
    cases hk : ok q with
    | false => exact hend _ (.fail s q hq hs hk)
    | true => exact hend _ (.pass s q hq hs hk)
  have hfail : ∀ q, q ≤ n → ok q = false → s.ph q = .failed := by
    intro q hq hk
    rcases g.cases q with h | h | h | h
    · exact absurd h (nostart q hq)
    · exact h
    · exact absurd (g.pass q (by rw [h]; simp) (by rw [h]; simp)) (by rw [hk]; simp)
    · exact absurd (g.pass q (by rw [h]; exact ha.1) (by rw [h]; exact ha.2.2)) (by rw [hk]; simp)
  have hpos : ∀ q, q ≤ n → ok q = true → s.ph q = .bcast ∨ s.ph q = after dec := by
    intro q hq hk
    rcases g.cases q with h | h | h | h
    · exact absurd h (nostart q hq)
    · exact absurd (g.fail q h) (by rw [hk]; simp)
    · exact Or.inl h
    · exact Or.inr h
  have hother : ∀ q, 1 ≤ q → q ≤ n → ok q = true → ok 0 = true → s.ph q = after dec := by
    intro q h1 hq hk h0
    rcases hpos q hq hk with h | h
    · exact absurd (Step.recv s q h1 hq h (g.sent.mpr (hpos 0 (Nat.zero_le _) h0))) (hend _)
    · exact h
  unfold finalPh
  cases hk : ok r with
  | false => rw [if_pos rfl]; exact hfail r hr hk
  | true =>
    rw [if_neg (by simp)]
    by_cases hr0 : r = 0
    · subst hr0
      rw [if_pos rfl]
      by_cases hm : sync = true ∧ ∃ q, 1 ≤ q ∧ q ≤ n ∧ ok q = false
      · rw [if_pos hm]
        rcases hpos 0 hr hk with h | h
        · exact h
        · obtain ⟨hs, q, h1, h2, h3⟩ := hm
          have := g.sync hs h q h1 h2
          rw [hfail q h2 h3] at this
          exact absurd this.symm ha.2.2
      · rw [if_neg hm]
        rcases hpos 0 hr hk with h | h
        · refine absurd (Step.root s h fun hs q h1 h2 => ?_) (hend _)
          cases hq : ok q with
          | false => exact absurd ⟨hs, q, h1, h2, hq⟩ hm
          | true => exact hother q h1 h2 hq hk
        · exact h
    · rw [if_neg hr0]
      by_cases h0 : ok 0 = true
      · rw [if_pos h0]; exact hother r (by omega) hr hk h0
      · rw [if_neg h0]
        rcases hpos r hr hk with h | h
        · exact h
        · exact absurd (g.got r h) h0

/-- **C108.** If the check of the threading layer succeeds in every process, all processes end up doing the same: all run, or all return the status decided by the first,
whatever the order of the steps and the buffering. -/
theorem launch_together {k : Nat} {s : L} (h : Steps n sync ok dec k s) (hend : ∀ t, ¬ Step n sync ok dec s t)
    (hok : ∀ r, r ≤ n → ok r = true) (r : Nat) (hr : r ≤ n) :
    (dec = none → s.ph r = .run) ∧ ∀ c, dec = some c → s.ph r = .left c := by
  suffices hs : s.ph r = after dec by
    rw [hs]
    exact ⟨fun e => by rw [e]; rfl, fun c e => by rw [e]; rfl⟩
  rw [launch_final h hend r hr]
  unfold finalPh
  have hn : ¬ (sync = true ∧ ∃ q, 1 ≤ q ∧ q ≤ n ∧ ok q = false) := by
    rintro ⟨_, q, h1, h2, h3⟩
    rw [hok q h2] at h3
    exact absurd h3 (by simp)
  rw [if_neg (by rw [hok r hr]; simp), if_pos (hok 0 (Nat.zero_le _)), if_neg hn, ite_self]

/-- **C108.** If the check fails in every process, all return failure. -/
theorem launch_all_fail {k : Nat} {s : L} (h : Steps n sync ok dec k s) (hend : ∀ t, ¬ Step n sync ok dec s t)
    (hok : ∀ r, r ≤ n → ok r = false) (r : Nat) (hr : r ≤ n) : s.ph r = .failed := by
  rw [launch_final h hend r hr]
  unfold finalPh
  rw [if_pos (hok r hr)]

/-- How far process `r` is from its end. -/
def Ph.left_ : Ph → Nat
  | .start => 2
  | .bcast => 1
  | _ => 0

/-- Steps left for processes `0, …, m - 1`. -/
def L.togo (s : L) (m : Nat) : Nat := ((List.range m).map fun r => (s.ph r).left_).sum

theorem togo_succ (s : L) (m : Nat) : s.togo (m + 1) = s.togo m + (s.ph m).left_ := by
  simp [L.togo, List.range_succ]

theorem togo_to (s : L) (r : Nat) (p : Ph) (m : Nat) :
    (s.to r p).togo m + (if r < m then (s.ph r).left_ else 0) = s.togo m + (if r < m then p.left_ else 0) := by
  induction m with
  | zero => simp [L.togo]
  | succ m ih =>
    rw [togo_succ, togo_succ]
    by_cases hr : r = m
    · subst hr
      rw [to_self]
      simp only [lt_irrefl, if_false, Nat.lt_succ_self, if_true] at ih ⊢
      omega
    · rw [to_other s p (Ne.symm hr)]
      by_cases hlt : r < m
      · rw [if_pos hlt, if_pos hlt] at ih
        rw [if_pos (by omega), if_pos (by omega)]
        omega
      · rw [if_neg hlt, if_neg hlt] at ih
        rw [if_neg (by omega), if_neg (by omega)]
        omega

theorem after_left (dec : Option Nat) : (after dec).left_ = 0 := by cases dec <;> rfl

theorem togo_step {s t : L} (h : Step n sync ok dec s t) : t.togo (n + 1) < s.togo (n + 1) := by
  have ha := after_left dec
  cases h with
  | fail r hr hs _ =>
    have := togo_to s r .failed (n + 1)
    rw [if_pos (by omega), if_pos (by omega), hs] at this
    change _ + 2 = _ + 0 at this
    omega
  | pass r hr hs _ =>
    have := togo_to s r .bcast (n + 1)
    rw [if_pos (by omega), if_pos (by omega), hs] at this
    change _ + 2 = _ + 1 at this
    omega
  | recv r _ hr hs _ =>
    have := togo_to s r (after dec) (n + 1)
    rw [if_pos (by omega), if_pos (by omega), hs, ha] at this
    change _ + 1 = _ + 0 at this
    omega
  | root hs _ =>
    have := togo_to s 0 (after dec) (n + 1)
    rw [if_pos (by omega), if_pos (by omega), hs, ha] at this
    change _ + 1 = _ + 0 at this
    omega

/-- **C108.** Start-up takes at most two steps of each process. -/
theorem launch_steps {k : Nat} {s : L} (h : Steps n sync ok dec k s) : k ≤ 2 * (n + 1) := by
  have key : ∀ {k : Nat} {s : L}, Steps n sync ok dec k s → k + s.togo (n + 1) ≤ 2 * (n + 1) := by
    intro k s h
    induction h with
    | zero =>
      have : ∀ m, L.init.togo m = 2 * m := by
        intro m
        induction m with
        | zero => rfl
        | succ m ih => rw [togo_succ, ih]; change 2 * m + 2 = _; omega
      rw [this]; omega
    | succ _ hs ih => have := togo_step hs; omega
  have := key h
  omega

/-- **C109.** The processes check their own environment. If the check fails in the first process and succeeds in another one, the first returns failure and the other one
waits in the broadcast for ever; no order of the steps avoids it. -/
theorem launch_stuck {k : Nat} {s : L} (h : Steps n sync ok dec k s) (hend : ∀ t, ¬ Step n sync ok dec s t)
    (h0 : ok 0 = false) (r : Nat) (hr : r ≤ n) (hk : ok r = true) : s.ph 0 = .failed ∧ s.ph r = .bcast := by
  rw [launch_final h hend r hr, launch_final h hend 0 (Nat.zero_le _)]
  unfold finalPh
  have hr0 : r ≠ 0 := fun e => by rw [e, h0] at hk; exact absurd hk (by simp)
  exact ⟨if_pos h0, by rw [if_neg (by rw [hk]; simp), if_neg hr0, if_neg (by rw [h0]; simp)]⟩

/-- **C109.** If it fails in another process only, this one is missing in the job: the first process waits for it in the broadcast, or goes on without it. -/
theorem launch_missing {k : Nat} {s : L} (h : Steps n sync ok dec k s) (hend : ∀ t, ¬ Step n sync ok dec s t)
    (h0 : ok 0 = true) (r : Nat) (hr : r ≤ n) (hk : ok r = false) :
    s.ph r = .failed ∧ s.ph 0 = if sync = true then .bcast else after dec := by
  rw [launch_final h hend r hr, launch_final h hend 0 (Nat.zero_le _)]
  unfold finalPh
  have hr0 : r ≠ 0 := fun e => by rw [e, h0] at hk; exact absurd hk (by simp)
  refine ⟨if_pos hk, ?_⟩
  rw [if_neg (by rw [h0]; simp), if_pos rfl]
  cases sync with
  | false => simp
  | true => rw [if_pos ⟨rfl, r, by omega, hr, hk⟩, if_pos rfl]

/-- **C109.** Two processes of one build whose environments differ: the checks differ. -/
theorem prepare_differs : ∃ (b : Build) (e : Nat → Option Str),
    (prepare b true (e 0)).1 = false ∧ (prepare b true (e 1)).1 = true :=
  ⟨⟨true, true, true, "GNU".toList⟩, fun r => if r = 0 then some "INTEL".toList else none, by decide +kernel⟩

/-- Non-vacuity: from every state with a process that can move there is a step, and the job always comes to an end. -/
theorem launch_ends (n : Nat) (sync : Bool) (ok : Nat → Bool) (dec : Option Nat) :
    ∃ k s, Steps n sync ok dec k s ∧ ∀ t, ¬ Step n sync ok dec s t := by
  have key : ∀ m k s, Steps n sync ok dec k s → s.togo (n + 1) ≤ m → ∃ k s, Steps n sync ok dec k s ∧ ∀ t, ¬ Step n sync ok dec s t := by
    intro m
    induction m with
    | zero => exact fun k s h hm => ⟨k, s, h, fun t ht => by have := togo_step ht; omega⟩
    | succ m ih =>
      intro k s h hm
      by_cases ht : ∃ t, Step n sync ok dec s t
      · obtain ⟨t, ht⟩ := ht
        exact ih (k + 1) t (h.succ ht) (by have := togo_step ht; omega)
      · exact ⟨k, s, h, fun t h => ht ⟨t, h⟩⟩
  exact key _ 0 _ .zero le_rfl

end Verif.Start
