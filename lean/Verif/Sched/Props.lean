import Verif.Sched.Lemmas
import Mathlib.Order.WellFounded
/-!
# C16-C18: parallel diagonalisation
-/

namespace Verif.Sched
open Verif.Invar (Label)
variable {R DP E : Type}

/-! ## C16 -/

/-- **C16.** A matrix of any shape (also with no rows or no columns), sent piece
by piece, arrives unchanged, and exactly its own messages are consumed. -/
theorem matrix_transfer (m : Mem R) (h : m.WF) (rest : List (Msg R DP)) :
    receiveMatrix (sendMatrix m ++ rest) = some (m, rest) := receive_send m h rest

/-- **C16.** The same for a complete result with its subspace label. -/
theorem result_transfer (e : Raw R) (I : Label) (h : e.vec.WF) (rest : List (Msg R DP)) :
    readFrom (sendResult e I ++ rest) = some ((I, e), rest) := by
  have := receive_send (DP := DP) e.vec h (.invar I :: rest)
  simp only [sendResult, List.cons_append, List.append_assoc, List.nil_append, readFrom, recvVec,
    Option.bind_eq_bind, Option.bind_some]
  rw [this]
  rfl

/-- No message is longer than one row. -/
theorem pieces_are_rows (m : Mem R) (row : List R) (h : Msg.part row ∈ sendMatrix (DP := DP) m) :
    row.length ≤ m.size2 := by
  simp only [sendMatrix, List.mem_cons, reduceCtorEq, List.mem_map, List.mem_range, false_or] at h
  obtain ⟨i, _, h⟩ := h
  cases h
  exact List.length_take_le _ _

/-- **C16.** A worker that receives parameters, any number of jobs and the exit
message answers every job, in order, with the diagonalisation of exactly the
matrix that was sent and its label, and then ends. -/
theorem worker_answers (diagonalise : DP → Mem R → Raw R) (dp0 dp : DP) (jobs : List (Label × Mem R))
    (h : ∀ j ∈ jobs, j.2.WF) :
    worker diagonalise (jobs.length + 2) dp0
        (.sync dp :: (jobs.flatMap fun j => sendJob j.1 j.2) ++ [.exit])
      = some (jobs.flatMap fun j => sendResult (diagonalise dp j.2) j.1, true) := by
  have key : ∀ (jobs : List (Label × Mem R)), (∀ j ∈ jobs, j.2.WF) →
      worker diagonalise (jobs.length + 1) dp ((jobs.flatMap fun j => sendJob j.1 j.2) ++ [.exit])
        = some (jobs.flatMap fun j => sendResult (diagonalise dp j.2) j.1, true) := by
    intro jobs
    induction jobs with
    | nil => intro _; rfl
    | cons j l ih =>
      intro h
      have h1 := receive_send (DP := DP) j.2 (h j (by simp)) ((l.flatMap fun j => sendJob j.1 j.2) ++ [.exit])
      have h2 := ih fun k hk => h k (by simp [hk])
      simp only [List.flatMap_cons, sendJob, List.cons_append, List.append_assoc, List.length_cons, worker,
        recvInvar, Option.bind_eq_bind, Option.bind_some] at h2 ⊢
      simp only [sendJob] at h1
      rw [h1]
      simp only [Option.bind_some]
      rw [h2]
      rfl
  simp only [List.cons_append, worker]
  exact key jobs h

example : sendMatrix (DP := Unit) (⟨2, 3, [1, 2, 3, 4, 5, 6]⟩ : Mem Int)
    = [.size 2, .size 3, .part [1, 2, 3], .part [4, 5, 6]] := by decide
example : (⟨2, 3, [1, 2, 3, 4, 5, 6]⟩ : Mem Int).WF := rfl

/-! ## C17 -/

section mpi
variable (eig : Label → E) (tasks : List (Nat × Label)) (nodes : Nat)

/-- **C17.** In every reachable state, under every interleaving: no internal
check fails; every task is in exactly one place (waiting, with a worker, in a
message to the master, done); and no worker has more than one job. -/
theorem mpi_each_task_once (hn : 1 ≤ nodes) (s : St E) (h : Reaches eig tasks nodes s) :
    s.phase ≠ .failed ∧
    (s.todo.map Prod.snd ++ s.running.map Prod.snd ++ s.ready.map Prod.snd ++ s.done).Perm (tasks.map Prod.snd) ∧
    (s.running.map Prod.fst ++ s.ready.map Prod.fst).Nodup ∧
    (∀ i ∈ s.running.map Prod.fst ++ s.ready.map Prod.fst, 1 ≤ i ∧ i < nodes) := by
  have hi := inv_reach eig tasks nodes hn s h
  exact ⟨hi.notFailed, hi.perm, hi.workers⟩

/-- **C17.** When the parallel run returns, its result is that of the serial
loop: every task has its own spectrum, and nothing else is there. It therefore
does not depend on the number of nodes or on timing. -/
theorem mpi_result (hn : 1 ≤ nodes) (s : St E) (h : Reaches eig tasks nodes s) (hr : s.phase = .returned) :
    s.diag = serial eig tasks ∧ s.done.Perm (tasks.map Prod.snd) ∧ s.running = [] ∧ s.ready = [] := by
  have hi := inv_reach eig tasks nodes hn s h
  obtain ⟨h1, h2⟩ := hi.final hr
  have h3 := hi.drained (by rw [hr]; decide)
  have hp := hi.perm
  simp only [pendingLabels, h1, h2, h3, List.map_nil, List.append_nil, List.nil_append] at hp
  refine ⟨?_, hp, h1, h2⟩
  rw [hi.diag, serial_eq]
  exact insertAll_congr eig _ _ fun k => hp.mem_iff

/-- **C17.** What the result contains. -/
theorem mpi_result_lookup (hn : 1 ≤ nodes) (s : St E) (h : Reaches eig tasks nodes s) (hr : s.phase = .returned)
    (I : Label) : mapGet I s.diag = if I ∈ tasks.map Prod.snd then some (eig I) else none := by
  rw [(mpi_result eig tasks nodes hn s h hr).1, serial_eq, insertAll_get _ _ _ sorted_nil]
  rfl

/-- **C17.** The run never gets stuck: in every reachable state that is not the
final one, some step is possible (in particular the blocking probe of the final
loop never waits for a message that nobody will send). -/
theorem mpi_no_deadlock (hn : 1 ≤ nodes) (s : St E) (h : Reaches eig tasks nodes s) (hr : s.phase ≠ .returned) :
    ∃ t, Step eig tasks.length s t := by
  have hi := inv_reach eig tasks nodes hn s h
  cases hp : s.phase with
  | scheduling =>
    by_cases ht : s.todo = []
    · exact ⟨_, Step.drain s hp ht⟩
    · exact ⟨_, Step.dispatch s hp ht⟩
  | draining =>
    have hd := hi.drained (by rw [hp]; decide)
    by_cases hl : s.done.length = tasks.length
    · exact ⟨_, Step.finished s hp hl⟩
    · cases hrd : s.ready with
      | cons r l => exact ⟨_, Step.collect s r hp hl (by rw [hrd]; simp)⟩
      | nil =>
        cases hrn : s.running with
        | cons r l => exact ⟨_, Step.finish s r (by rw [hrn]; simp)⟩
        | nil =>
          have := hi.perm.length_eq
          simp only [pendingLabels, hd, hrd, hrn, List.map_nil, List.nil_append, List.length_map] at this
          exact absurd this hl
  | returned => exact absurd hp hr
  | failed => exact absurd hp hi.notFailed

/-- **C17.** There is no infinite run, and no run is longer than three steps per
task plus two. -/
theorem mpi_terminates :
    (¬ ∃ f : Nat → St E, f 0 = start tasks nodes ∧ ∀ n, Step eig tasks.length (f n) (f (n + 1))) ∧
    ∀ (k : Nat) (f : Nat → St E), f 0 = start tasks nodes →
      (∀ n < k, Step eig tasks.length (f n) (f (n + 1))) → k ≤ 3 * tasks.length + 2 := by
  have bound : ∀ (k : Nat) (f : Nat → St E), f 0 = start tasks nodes →
      (∀ n < k, Step eig tasks.length (f n) (f (n + 1))) → k ≤ 3 * tasks.length + 2 := by
    intro k f h0 hs
    have : ∀ n ≤ k, work (f n) + n ≤ work (f 0) := by
      intro n
      induction n with
      | zero => intro _; simp
      | succ n ih =>
        intro hn
        have h1 := ih (by omega)
        have h2 := work_decreases eig _ _ _ (hs n (by omega))
        omega
    have hk := this k (le_refl _)
    rw [h0] at hk
    simp only [work, start, List.length_nil] at hk
    omega
  refine ⟨?_, bound⟩
  rintro ⟨f, h0, hs⟩
  have := bound (3 * tasks.length + 3) f h0 fun n _ => hs n
  omega

/-- **C17.** Workers are given the largest task left, the master works on the
smallest one, and a last single task is not sent over the network. -/
theorem mpi_sizes (hn : 1 ≤ nodes) (hsort : tasks.Pairwise fun a b => b.1 ≤ a.1) (s : St E)
    (h : Reaches eig tasks nodes s) (hp : s.phase = .scheduling) (ht : s.todo ≠ []) :
    (∃ t, t ∈ s.todo ∧ (∀ u ∈ s.todo, t.1 ≤ u.1) ∧ (dispatch eig s).done = s.done ++ [t.2] ∧
        (dispatch eig s).running = s.running) ∨
    (∃ t i, t ∈ s.todo ∧ (∀ u ∈ s.todo, u.1 ≤ t.1) ∧ (dispatch eig s).done = s.done ∧
        (dispatch eig s).running = (i, t.2) :: s.running ∧ s.todo.length ≠ 1) := by
  have hi := inv_reach eig tasks nodes hn s h
  obtain ⟨ws, hav, hws⟩ := hi.queue hp ht
  obtain ⟨a, b, hsub⟩ := hi.sub
  have hst : s.todo.Pairwise fun a b => b.1 ≤ a.1 := by
    rw [hsub] at hsort
    exact (List.pairwise_append.1 (List.pairwise_append.1 hsort).1).2.1
  obtain ⟨last, hlast⟩ : ∃ x, s.todo.getLast? = some x := ⟨_, List.getLast?_eq_some_getLast ht⟩
  obtain ⟨back, hb⟩ : ∃ x, s.avail.getLast? = some x :=
    ⟨_, List.getLast?_eq_some_getLast (by rw [hav]; simp)⟩
  unfold dispatch
  simp only [hb]
  by_cases h0 : (if s.todo.length ≠ 1 then back else 0) = 0
  · left
    rw [if_pos h0]
    simp only [hlast]
    have hl' := getLast?_eq_some hlast
    refine ⟨last, by rw [hl']; simp, ?_, by simp⟩
    intro u hu
    rw [hl'] at hu hst
    rcases List.mem_append.1 hu with hu | hu
    · exact (List.pairwise_append.1 hst).2.2 u hu last (by simp)
    · simp at hu; rw [hu]
  · right
    have hne : s.todo.length ≠ 1 := by
      intro hc; simp [hc] at h0
    rw [if_neg h0]
    cases htodo : s.todo with
    | nil => exact absurd htodo ht
    | cons t l =>
      refine ⟨t, _, by simp, ?_, rfl, rfl, by rw [← htodo]; exact hne⟩
      intro u hu
      rw [htodo] at hst
      rcases List.mem_cons.1 hu with rfl | hu
      · exact le_refl _
      · exact (List.pairwise_cons.1 hst).1 u hu

end mpi

/-- A run with three nodes and three tasks in which the worker that was started
last finishes first reaches the final state, so the theorems above are not
about nothing. -/
example : Reaches (fun I => I.length) [(5, [1]), (4, [2]), (3, [3, 3])] 3
    (⟨.returned, [], [0, 0], [], [], [[3, 3], [2], [1]], [([1], 1), ([2], 1), ([3, 3], 2)]⟩ : St Nat) := by
  let eig : Label → Nat := fun I => I.length
  have h1 : Step eig 3 (start [(5, [1]), (4, [2]), (3, [3, 3])] 3)
      ⟨.scheduling, [(4, [2]), (3, [3, 3])], [0, 1], [(2, [1])], [], [], []⟩ := Step.dispatch _ rfl (by decide)
  have h2 : Step eig 3 ⟨.scheduling, [(4, [2]), (3, [3, 3])], [0, 1], [(2, [1])], [], [], []⟩
      ⟨.scheduling, [(3, [3, 3])], [0], [(1, [2]), (2, [1])], [], [], []⟩ := Step.dispatch _ rfl (by simp)
  have h3 : Step eig 3 ⟨.scheduling, [(3, [3, 3])], [0], [(1, [2]), (2, [1])], [], [], []⟩
      ⟨.scheduling, [], [0, 0], [(1, [2]), (2, [1])], [], [[3, 3]], [([3, 3], 2)]⟩ := Step.dispatch _ rfl (by simp)
  have h4 : Step eig 3 ⟨.scheduling, [], [0, 0], [(1, [2]), (2, [1])], [], [[3, 3]], [([3, 3], 2)]⟩
      ⟨.draining, [], [0, 0], [(1, [2]), (2, [1])], [], [[3, 3]], [([3, 3], 2)]⟩ := Step.drain _ rfl rfl
  have h5 : Step eig 3 ⟨.draining, [], [0, 0], [(1, [2]), (2, [1])], [], [[3, 3]], [([3, 3], 2)]⟩
      ⟨.draining, [], [0, 0], [(2, [1])], [(1, [2])], [[3, 3]], [([3, 3], 2)]⟩ := Step.finish _ (1, [2]) (by simp)
  have h6 : Step eig 3 ⟨.draining, [], [0, 0], [(2, [1])], [(1, [2])], [[3, 3]], [([3, 3], 2)]⟩
      ⟨.draining, [], [0, 0], [(2, [1])], [], [[3, 3], [2]], [([2], 1), ([3, 3], 2)]⟩ :=
    Step.collect _ (1, [2]) rfl (by simp) (by simp)
  have h7 : Step eig 3 ⟨.draining, [], [0, 0], [(2, [1])], [], [[3, 3], [2]], [([2], 1), ([3, 3], 2)]⟩
      ⟨.draining, [], [0, 0], [], [(2, [1])], [[3, 3], [2]], [([2], 1), ([3, 3], 2)]⟩ :=
    Step.finish _ (2, [1]) (by simp)
  have h8 : Step eig 3 ⟨.draining, [], [0, 0], [], [(2, [1])], [[3, 3], [2]], [([2], 1), ([3, 3], 2)]⟩
      ⟨.draining, [], [0, 0], [], [], [[3, 3], [2], [1]], [([1], 1), ([2], 1), ([3, 3], 2)]⟩ :=
    Step.collect _ (2, [1]) rfl (by simp) (by simp)
  have h9 : Step eig 3 ⟨.draining, [], [0, 0], [], [], [[3, 3], [2], [1]], [([1], 1), ([2], 1), ([3, 3], 2)]⟩
      ⟨.returned, [], [0, 0], [], [], [[3, 3], [2], [1]], [([1], 1), ([2], 1), ([3, 3], 2)]⟩ :=
    Step.finished _ rfl rfl
  exact ((((((((Relation.ReflTransGen.single h1).tail h2).tail h3).tail h4).tail h5).tail h6).tail h7).tail h8).tail h9

/-! ## C18 -/

section omp
variable (eig : Label → E) (tasks : List (Nat × Label)) (threads : Nat)

/-- Invariant of the OpenMP loop. -/
theorem omp_inv (s : OmpSt E) (h : Relation.ReflTransGen (OmpStep eig tasks threads) (ompStart E) s) :
    s.next ≤ tasks.length ∧ ∃ inserted, (s.active ++ inserted).Perm ((tasks.take s.next).map Prod.snd) ∧
      s.diag = insertAll eig inserted [] := by
  induction h with
  | refl => exact ⟨by simp [ompStart], [], by simp [ompStart], rfl⟩
  | tail _ hstep ih =>
    rename_i s t _
    obtain ⟨h0, ins, h1, h2⟩ := ih
    cases hstep with
    | take d I h ht =>
      obtain ⟨hlt, he⟩ := List.getElem?_eq_some_iff.1 h
      refine ⟨hlt, ins, ?_, h2⟩
      simp only [List.take_succ, h, Option.toList_some, List.map_append, List.map_cons, List.map_nil, List.cons_append]
      refine (List.Perm.cons I h1).trans ?_
      exact (List.perm_append_singleton _ _).symm
    | insert I h =>
      refine ⟨h0, ins ++ [I], ?_, ?_⟩
      · refine List.Perm.trans ?_ h1
        refine List.Perm.trans ?_ (List.Perm.append_right _ (List.perm_cons_erase h)).symm
        rw [← List.append_assoc]
        exact List.perm_append_comm
      · simp only
        rw [insertAll_append, h2]

/-- **C18.** Whatever the order in which threads take and finish tasks, when the
loop is over the result is that of the serial loop. -/
theorem omp_result (s : OmpSt E) (h : Relation.ReflTransGen (OmpStep eig tasks threads) (ompStart E) s)
    (hd : OmpDone tasks s) : s.diag = serial eig tasks := by
  obtain ⟨h0, ins, h1, h2⟩ := omp_inv eig tasks threads s h
  obtain ⟨h3, h4⟩ := hd
  rw [h4, List.take_of_length_le (by omega), List.nil_append] at h1
  rw [h2, serial_eq]
  exact insertAll_congr eig _ _ fun k => h1.mem_iff

/-- **C18.** With at least one thread the loop never gets stuck before it is
over, and every run is finite (two steps per task). -/
theorem omp_progress (ht : 1 ≤ threads) (s : OmpSt E)
    (h : Relation.ReflTransGen (OmpStep eig tasks threads) (ompStart E) s) (hd : ¬ OmpDone tasks s) :
    ∃ t, OmpStep eig tasks threads s t := by
  obtain ⟨h0, _⟩ := omp_inv eig tasks threads s h
  cases ha : s.active with
  | cons I l => exact ⟨_, OmpStep.insert s I (by rw [ha]; simp)⟩
  | nil =>
    have hlt : s.next < tasks.length := by
      by_contra hc
      exact hd ⟨by omega, ha⟩
    exact ⟨_, OmpStep.take s (tasks[s.next]).1 (tasks[s.next]).2 (List.getElem?_eq_getElem hlt) (by rw [ha]; exact ht)⟩

theorem omp_terminates (k : Nat) (f : Nat → OmpSt E) (h0 : f 0 = ompStart E)
    (hs : ∀ n < k, OmpStep eig tasks threads (f n) (f (n + 1))) : k ≤ 2 * tasks.length := by
  have hr : ∀ n ≤ k, Relation.ReflTransGen (OmpStep eig tasks threads) (ompStart E) (f n) := by
    intro n
    induction n with
    | zero => intro _; rw [h0]
    | succ n ih => intro hn; exact (ih (by omega)).tail (hs n (by omega))
  have hm : ∀ n ≤ k, n + (f n).active.length = 2 * (f n).next := by
    intro n
    induction n with
    | zero => intro _; simp [h0, ompStart]
    | succ n ih =>
      intro hn
      have h1 := ih (by omega)
      have h2 := hs n (by omega)
      generalize f (n + 1) = t at h2 ⊢
      generalize f n = s at h1 h2
      cases h2 with
      | take d I h ht => simp only [List.length_cons]; omega
      | insert I h =>
        have := List.length_pos_of_mem h
        simp only [List.length_erase_of_mem h]; omega
  have h1 := hm k (le_refl _)
  have h2 := (omp_inv eig tasks threads (f k) (hr k (le_refl _))).1
  omega

end omp

/-- Two threads, the second one finishing first. -/
example : Relation.ReflTransGen (OmpStep (fun I => I.length) [(5, [1]), (4, [2, 2])] 2) (ompStart Nat)
    ⟨2, [], [([1], 1), ([2, 2], 2)]⟩ := by
  have h1 : OmpStep (fun I => I.length) [(5, [1]), (4, [2, 2])] 2 (ompStart Nat) ⟨1, [[1]], []⟩ :=
    OmpStep.take _ 5 [1] rfl (by decide)
  have h2 : OmpStep (fun I : Label => I.length) [(5, [1]), (4, [2, 2])] 2 ⟨1, [[1]], []⟩ ⟨2, [[2, 2], [1]], []⟩ :=
    OmpStep.take _ 4 [2, 2] rfl (by simp)
  have h3 : OmpStep (fun I : Label => I.length) [(5, [1]), (4, [2, 2])] 2 ⟨2, [[2, 2], [1]], []⟩
      ⟨2, [[1]], [([2, 2], 2)]⟩ := OmpStep.insert _ [2, 2] (by simp)
  have h4 : OmpStep (fun I : Label => I.length) [(5, [1]), (4, [2, 2])] 2 ⟨2, [[1]], [([2, 2], 2)]⟩
      ⟨2, [], [([1], 1), ([2, 2], 2)]⟩ := OmpStep.insert _ [1] (by simp)
  exact (((Relation.ReflTransGen.single h1).tail h2).tail h3).tail h4

end Verif.Sched
