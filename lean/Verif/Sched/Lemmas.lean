import Verif.Sched.Model
import Verif.Store.Lemmas
import Mathlib.Data.List.Perm.Basic
import Mathlib.Data.List.Nodup
/-!
# Helper lemmas for parallel diagonalisation
-/

namespace Verif.Sched
open Verif.Invar (Label)
open Verif.Store (mapSet Sorted)
variable {R DP E : Type}

/-! ## Messages -/

theorem recvParts_send (data : List R) (len : Nat) (n : Nat) (h : data.length = n * len) (rest : List (Msg R DP)) :
    recvParts len n ((List.range n).map (fun i => Msg.part ((data.drop (i * len)).take len)) ++ rest)
      = some (data, rest) := by
  induction n generalizing data with
  | zero =>
    have : data = [] := List.length_eq_zero_iff.1 (by omega)
    simp [recvParts, this]
  | succ n ih =>
    rw [Nat.succ_mul] at h
    rw [List.range_succ_eq_map]
    simp only [List.map_cons, List.map_map, List.cons_append, recvParts, Nat.zero_mul, List.drop_zero, recvPart]
    have hl : (data.take len).length = len := by rw [List.length_take]; omega
    rw [if_pos hl]
    have e : ((fun i => (Msg.part ((data.drop (i * len)).take len) : Msg R DP)) ∘ Nat.succ)
        = fun i => Msg.part (((data.drop len).drop (i * len)).take len) := by
      funext i
      simp only [Function.comp, Nat.succ_eq_add_one, Nat.succ_mul, List.drop_drop]
      rw [Nat.add_comm]
    rw [e]
    have := ih (data.drop len) (by rw [List.length_drop]; omega)
    simp only [Option.bind_eq_bind, Option.bind_some]
    rw [this]
    simp

theorem receive_send (m : Mem R) (h : m.WF) (rest : List (Msg R DP)) :
    receiveMatrix (sendMatrix m ++ rest) = some (m, rest) := by
  have := recvParts_send (DP := DP) m.data m.size2 m.size1 h rest
  simp only [receiveMatrix, sendMatrix, List.cons_append, recvSize, Option.bind_eq_bind, Option.bind_some]
  rw [this]
  rfl

/-! ## Maps -/

/-- Value stored under a key. -/
def mapGet {β} (k : Label) (m : List (Label × β)) : Option β := (m.find? fun p => decide (p.1 = k)).map Prod.snd

theorem lt_asymm {a b : Label} (h : Invar.lt a b = true) : Invar.lt b a = false := by
  by_contra hc
  have hc : Invar.lt b a = true := by simpa using hc
  have := Verif.Invar.lt_trans' _ _ _ h hc
  rw [Verif.Invar.lt_irrefl'] at this
  cases this

theorem mapSet_get {β} (k k' : Label) (x : β) (m : List (Label × β)) (hs : Sorted m) :
    mapGet k' (mapSet k x m) = if k' = k then some x else mapGet k' m := by
  induction m with
  | nil =>
    simp only [mapSet, mapGet, List.find?_cons, List.find?_nil]
    by_cases h : k = k'
    · simp [h]
    · have h' : ¬ k' = k := fun e => h e.symm
      simp [h, h']
  | cons p l ih =>
    have hs' : Sorted l := (List.pairwise_cons.1 hs).2
    simp only [mapSet]
    split
    · simp only [mapGet, List.find?_cons]
      by_cases h : k = k'
      · simp [h]
      · have h' : ¬ k' = k := fun e => h e.symm
        simp [h, h']
    · split
      · rename_i h1 h2
        simp only [mapGet, List.find?_cons]
        by_cases h : k = k'
        · simp [h]
        · have h' : ¬ k' = k := fun e => h e.symm
          have h'' : ¬ p.1 = k' := by rw [← h2]; exact h
          simp [h, h', h'']
      · rename_i h1 h2
        have hi := ih hs'
        simp only [mapGet, List.find?_cons] at hi ⊢
        by_cases h : p.1 = k'
        · have h' : ¬ k' = k := by rintro rfl; exact h2 h.symm
          simp [h, h']
        · simp only [h, decide_false, Bool.false_eq_true, if_false]
          exact hi

theorem mapSet_mem {β} (k : Label) (x : β) (m : List (Label × β)) (p : Label × β) (h : p ∈ mapSet k x m) :
    p = (k, x) ∨ p ∈ m := by
  induction m with
  | nil => simp [mapSet] at h; exact Or.inl h
  | cons q l ih =>
    simp only [mapSet] at h
    split at h
    · simp only [List.mem_cons] at h ⊢; tauto
    · split at h
      · simp only [List.mem_cons] at h ⊢; tauto
      · simp only [List.mem_cons] at h ⊢
        rcases h with h | h
        · tauto
        · rcases ih h with h | h <;> tauto

theorem mapSet_sorted {β} (k : Label) (x : β) (m : List (Label × β)) (hs : Sorted m) : Sorted (mapSet k x m) := by
  induction m with
  | nil => simp [mapSet, Sorted]
  | cons p l ih =>
    have hp := List.pairwise_cons.1 hs
    simp only [mapSet]
    split
    · rename_i h
      refine List.pairwise_cons.2 ⟨?_, hs⟩
      intro q hq
      rcases List.mem_cons.1 hq with rfl | hq
      · exact h
      · exact Verif.Invar.lt_trans' _ _ _ h (hp.1 q hq)
    · split
      · rename_i h1 h2
        subst h2
        exact List.pairwise_cons.2 ⟨hp.1, hp.2⟩
      · rename_i h1 h2
        refine List.pairwise_cons.2 ⟨?_, ih hp.2⟩
        intro q hq
        rcases mapSet_mem _ _ _ _ hq with rfl | hq
        · rcases Verif.Invar.lt_total' k p.1 with h | h | h
          · exact absurd h h1
          · exact absurd h h2
          · exact h
        · exact hp.1 q hq

/-- Two maps with the same lookups are equal. -/
theorem sorted_ext {β} (m m' : List (Label × β)) (hs : Sorted m) (hs' : Sorted m')
    (h : ∀ k, mapGet k m = mapGet k m') : m = m' := by
  have key : ∀ (m : List (Label × β)), Sorted m → ∀ k x, mapGet k m = some x ↔ (k, x) ∈ m := by
    intro m
    induction m with
    | nil => intro _ k x; simp [mapGet]
    | cons p l ih =>
      intro hs k x
      have hp := List.pairwise_cons.1 hs
      have hi := ih hp.2 k x
      simp only [mapGet, List.find?_cons] at hi ⊢
      by_cases hk : p.1 = k
      · simp only [hk, decide_true, Option.map_some, Option.some.injEq, List.mem_cons]
        constructor
        · rintro rfl; left; rw [← hk]
        · rintro (h | h)
          · rw [← h]
          · have := hp.1 (k, x) h
            rw [hk, Verif.Invar.lt_irrefl'] at this
            cases this
      · simp only [hk, decide_false, Bool.false_eq_true, if_false, List.mem_cons]
        rw [hi]
        constructor
        · exact Or.inr
        · rintro (h | h)
          · exact absurd (by rw [← h]) hk
          · exact h
  have hmem : ∀ p, p ∈ m ↔ p ∈ m' := by
    intro p
    rw [← key m hs p.1 p.2, ← key m' hs' p.1 p.2, h]
  have hnd : ∀ (m : List (Label × β)), Sorted m → m.Nodup := by
    intro m hs
    refine List.Pairwise.imp ?_ hs
    intro a b hab he
    rw [he, Verif.Invar.lt_irrefl'] at hab
    cases hab
  have hperm : m.Perm m' := (List.perm_ext_iff_of_nodup (hnd m hs) (hnd m' hs')).2 hmem
  refine List.Perm.eq_of_pairwise (le := fun p q : Label × β => Invar.lt p.1 q.1 = true) ?_ hs hs' hperm
  intro a b _ _ h1 h2
  rw [lt_asymm h1] at h2
  cases h2

/-- Inserting the results of a list of tasks. -/
def insertAll (eig : Label → E) (l : List Label) (m : List (Label × E)) : List (Label × E) :=
  l.foldl (fun d I => mapSet I (eig I) d) m

theorem insertAll_sorted (eig : Label → E) (l : List Label) (m) (hs : Sorted m) : Sorted (insertAll eig l m) := by
  induction l generalizing m with
  | nil => exact hs
  | cons I l ih => exact ih _ (mapSet_sorted _ _ _ hs)

theorem insertAll_get (eig : Label → E) (l : List Label) (m) (hs : Sorted m) (k : Label) :
    mapGet k (insertAll eig l m) = if k ∈ l then some (eig k) else mapGet k m := by
  induction l generalizing m with
  | nil => simp [insertAll]
  | cons I l ih =>
    have := ih _ (mapSet_sorted I (eig I) m hs)
    simp only [insertAll, List.foldl_cons] at this ⊢
    rw [this, mapSet_get _ _ _ _ hs]
    by_cases h1 : k ∈ l
    · simp [h1]
    · by_cases h2 : k = I
      · simp [h2]
      · simp [h1, h2]

theorem sorted_nil : Sorted ([] : List (Label × E)) := List.Pairwise.nil

/-- The order of insertion does not matter. -/
theorem insertAll_congr (eig : Label → E) (l l' : List Label) (h : ∀ k, k ∈ l ↔ k ∈ l') :
    insertAll eig l [] = insertAll eig l' [] := by
  refine sorted_ext _ _ (insertAll_sorted _ _ _ sorted_nil) (insertAll_sorted _ _ _ sorted_nil) ?_
  intro k
  rw [insertAll_get _ _ _ sorted_nil, insertAll_get _ _ _ sorted_nil]
  simp [h]

theorem insertAll_append (eig : Label → E) (l : List Label) (I : Label) (m) :
    insertAll eig (l ++ [I]) m = mapSet I (eig I) (insertAll eig l m) := by
  simp [insertAll]

theorem serial_eq (eig : Label → E) (tasks : List (Nat × Label)) :
    serial eig tasks = insertAll eig (tasks.map Prod.snd) [] := by
  simp [serial, insertAll, List.foldl_map]

/-! ## The scheduler invariant -/

/-- Tasks not yet done, wherever they are. -/
def pendingLabels (s : St E) : List Label :=
  s.todo.map Prod.snd ++ s.running.map Prod.snd ++ s.ready.map Prod.snd

/-- The inductive invariant. While scheduling, the master is at the head of the
queue of available nodes; every other node is exactly one of: available,
working, finished and waiting to be read. -/
structure Inv (eig : Label → E) (tasks : List (Nat × Label)) (nodes : Nat) (s : St E) : Prop where
  perm : (pendingLabels s ++ s.done).Perm (tasks.map Prod.snd)
  diag : s.diag = insertAll eig s.done []
  notFailed : s.phase ≠ .failed
  queue : s.phase = .scheduling → s.todo ≠ [] →
    ∃ ws, s.avail = 0 :: ws ∧ (ws ++ s.running.map Prod.fst ++ s.ready.map Prod.fst).Perm ((List.range nodes).drop 1)
  workers : (s.running.map Prod.fst ++ s.ready.map Prod.fst).Nodup ∧
    ∀ i ∈ s.running.map Prod.fst ++ s.ready.map Prod.fst, 1 ≤ i ∧ i < nodes
  drained : s.phase ≠ .scheduling → s.todo = []
  final : s.phase = .returned → s.running = [] ∧ s.ready = []
  sub : ∃ a b, tasks = a ++ s.todo ++ b

theorem range_drop_one (n : Nat) (i : Nat) (h : i ∈ (List.range n).drop 1) : 1 ≤ i ∧ i < n := by
  cases n with
  | zero => simp at h
  | succ n =>
    rw [List.range_succ_eq_map] at h
    simp only [List.drop_succ_cons, List.drop_zero, List.mem_map, List.mem_range] at h
    obtain ⟨a, ha, rfl⟩ := h
    omega

theorem range_drop_nodup (n : Nat) : ((List.range n).drop 1).Nodup :=
  List.Nodup.sublist (List.drop_sublist _ _) List.nodup_range

theorem inv_start (eig : Label → E) (tasks : List (Nat × Label)) (nodes : Nat) (hn : 1 ≤ nodes) :
    Inv eig tasks nodes (start tasks nodes) := by
  refine ⟨by simp [start, pendingLabels], rfl, by simp [start], ?_, by simp [start], by simp [start],
    by simp [start], [], [], by simp [start]⟩
  intro _ _
  refine ⟨(List.range nodes).drop 1, ?_, by simp [start]⟩
  obtain ⟨n, rfl⟩ : ∃ n, nodes = n + 1 := ⟨nodes - 1, by omega⟩
  simp [start, List.range_succ_eq_map]

theorem getLast?_eq_some {α} {l : List α} {a : α} (h : l.getLast? = some a) : l = l.dropLast ++ [a] := by
  have hne : l ≠ [] := by rintro rfl; simp at h
  have := List.dropLast_append_getLast hne
  rw [List.getLast?_eq_some_getLast hne] at h
  cases h
  exact this.symm

theorem perm_move {α} (a b c : List α) (x : α) : (a ++ (x :: b) ++ c).Perm (x :: (a ++ b ++ c)) := by
  rw [List.append_assoc, List.append_assoc, List.cons_append]
  exact List.perm_middle

theorem inv_dispatch (eig : Label → E) (tasks : List (Nat × Label)) (nodes : Nat) (s : St E)
    (hi : Inv eig tasks nodes s) (h : s.phase = .scheduling) (ht : s.todo ≠ []) :
    Inv eig tasks nodes (dispatch eig s) := by
  obtain ⟨ws, hav, hws⟩ := hi.queue h ht
  obtain ⟨a, b, hsub⟩ := hi.sub
  -- the master runs the last task of the list
  have master : ∀ (av : List Nat) (d : Nat) (I : Label), s.todo.getLast? = some (d, I) →
      (s.todo.dropLast ≠ [] → av = [] ∧ ws = []) →
      Inv eig tasks nodes { s with todo := s.todo.dropLast, avail := av ++ [0], done := s.done ++ [I],
                                   diag := mapSet I (eig I) s.diag } := by
    intro av d I hl hq
    have hl' := getLast?_eq_some hl
    refine ⟨?_, ?_, hi.notFailed, ?_, hi.workers, fun hp => absurd h hp, fun hp => ?_, a, (d, I) :: b, ?_⟩
    · refine List.Perm.trans ?_ hi.perm
      simp only [pendingLabels]
      conv_rhs => rw [hl']
      simp only [List.map_append, List.map_cons, List.map_nil, List.append_assoc]
      refine List.Perm.append_left _ ?_
      rw [← List.append_assoc, ← List.append_assoc, List.singleton_append, ← List.append_assoc]
      exact List.perm_append_comm
    · simp only
      rw [insertAll_append, hi.diag]
    · intro _ hne
      obtain ⟨h1, h2⟩ := hq hne
      subst h1 h2
      exact ⟨[], rfl, hws⟩
    · rw [h] at hp; cases hp
    · simp only
      rw [hsub]
      conv_lhs => rw [hl']
      simp
  unfold dispatch
  by_cases h1 : s.todo.length = 1
  · -- a single task
    obtain ⟨⟨d, I⟩, he⟩ := List.length_eq_one_iff.1 h1
    have hlast : s.todo.getLast? = some (d, I) := by rw [he]; rfl
    have hback : s.avail.getLast?.isSome := by rw [hav]; simp [List.getLast?_cons]
    obtain ⟨back, hb⟩ := Option.isSome_iff_exists.1 hback
    simp only [hb, h1, ne_eq, not_true_eq_false, if_false, if_true, hlast]
    exact master _ d I hlast (by rw [he]; simp)
  · cases hw : ws.getLast? with
    | none =>
      have hws0 : ws = [] := by simpa using hw
      subst hws0
      have hb : s.avail.getLast? = some 0 := by rw [hav]; rfl
      obtain ⟨⟨d, I⟩, hlast⟩ : ∃ x, s.todo.getLast? = some x := ⟨_, List.getLast?_eq_some_getLast ht⟩
      simp only [hb, h1, ne_eq, not_false_eq_true, if_true, hlast]
      exact master _ d I hlast (fun _ => ⟨by rw [hav]; rfl, rfl⟩)
    | some w =>
      have hw' := getLast?_eq_some hw
      have hwne : ws ≠ [] := by rintro rfl; simp at hw
      have hb : s.avail.getLast? = some w := by
        rw [hav, List.getLast?_cons, hw]; rfl
      have hdl : s.avail.dropLast = 0 :: ws.dropLast := by
        rw [hav]
        cases ws with
        | nil => exact absurd rfl hwne
        | cons x l => rfl
      have hwmem : w ∈ (List.range nodes).drop 1 := by
        refine hws.mem_iff.1 ?_
        simp only [List.mem_append]
        left; left
        rw [hw']; simp
      have hw1 := range_drop_one nodes w hwmem
      have hw0 : w ≠ 0 := by omega
      cases htodo : s.todo with
      | nil => exact absurd htodo ht
      | cons t l =>
        obtain ⟨d, I⟩ := t
        rw [htodo] at h1
        simp only [hb, h1, ne_eq, not_false_eq_true, if_true, hw0, if_false, hdl]
        have hq : (ws.dropLast ++ ((w, I) :: s.running).map Prod.fst ++ s.ready.map Prod.fst).Perm
            ((List.range nodes).drop 1) := by
          refine List.Perm.trans ?_ hws
          conv_rhs => rw [hw']
          simp
        have hnd := (hq.nodup_iff).2 (range_drop_nodup nodes)
        refine ⟨?_, hi.diag, hi.notFailed, ?_, ⟨?_, ?_⟩, fun hp => absurd h hp, fun hp => ?_, a ++ [(d, I)], b, ?_⟩
        · refine List.Perm.trans ?_ hi.perm
          simp only [pendingLabels, htodo, List.map_cons, List.cons_append, List.append_assoc]
          exact List.perm_middle
        · intro _ _
          exact ⟨_, rfl, hq⟩
        · rw [List.append_assoc] at hnd
          exact (List.nodup_append.1 hnd).2.1
        · intro i hi'
          refine range_drop_one nodes i (hq.mem_iff.1 ?_)
          rw [List.append_assoc]
          exact List.mem_append_right _ hi'
        · simp only at hp; rw [h] at hp; cases hp
        · simp only; rw [hsub, htodo]; simp

theorem map_erase_perm {r : Nat × Label} {l : List (Nat × Label)} (h : r ∈ l) :
    (l.map Prod.fst).Perm (r.1 :: (l.erase r).map Prod.fst) ∧ (l.map Prod.snd).Perm (r.2 :: (l.erase r).map Prod.snd) :=
  ⟨(List.perm_cons_erase h).map Prod.fst, (List.perm_cons_erase h).map Prod.snd⟩

theorem inv_receive (eig : Label → E) (tasks : List (Nat × Label)) (nodes : Nat) (s : St E)
    (hi : Inv eig tasks nodes s) (r : Nat × Label) (hr : r ∈ s.ready) (hp : s.phase ≠ .returned) :
    Inv eig tasks nodes (receive eig s r) := by
  obtain ⟨p1, p2⟩ := map_erase_perm hr
  refine ⟨?_, ?_, hi.notFailed, ?_, ⟨?_, ?_⟩, hi.drained, fun h => absurd h hp, hi.sub⟩
  · refine List.Perm.trans ?_ hi.perm
    simp only [pendingLabels, receive]
    rw [List.append_assoc, List.append_assoc _ _ s.done]
    refine List.Perm.append_left _ ?_
    refine List.Perm.trans ?_ (List.Perm.append_right _ p2).symm
    rw [← List.append_assoc]
    refine List.perm_append_comm.trans ?_
    simp
  · simp only [receive]
    rw [insertAll_append, hi.diag]
  · intro h hne
    simp only [receive] at h hne ⊢
    obtain ⟨ws, hav, hws⟩ := hi.queue h hne
    refine ⟨ws ++ [r.1], by rw [if_pos h, hav]; rfl, ?_⟩
    refine List.Perm.trans ?_ hws
    have e : (ws ++ s.running.map Prod.fst ++ s.ready.map Prod.fst).Perm
        (ws ++ s.running.map Prod.fst ++ (r.1 :: (s.ready.erase r).map Prod.fst)) := List.Perm.append_left _ p1
    refine List.Perm.trans ?_ e.symm
    rw [List.append_assoc ws, List.append_assoc ws, List.append_assoc ws]
    refine List.Perm.append_left _ ?_
    rw [List.singleton_append, List.cons_append]
    exact List.perm_middle.symm
  · exact List.Nodup.sublist (List.Sublist.append_left (List.Sublist.map _ List.erase_sublist) _) hi.workers.1
  · intro i hi'
    refine hi.workers.2 i ?_
    exact (List.Sublist.append_left (List.Sublist.map _ List.erase_sublist) _).subset hi'

theorem inv_step (eig : Label → E) (tasks : List (Nat × Label)) (nodes : Nat) (s t : St E)
    (hi : Inv eig tasks nodes s) (h : Step eig tasks.length s t) : Inv eig tasks nodes t := by
  cases h with
  | dispatch h ht => exact inv_dispatch eig tasks nodes s hi h ht
  | finish r h =>
    obtain ⟨p1, p2⟩ := map_erase_perm h
    have key : ∀ (f : Nat × Label → Nat) , ((s.running.erase r).map f ++ (s.ready ++ [r]).map f).Perm
        (s.running.map f ++ s.ready.map f) := by
      intro f
      have := (List.perm_cons_erase h).map f
      refine List.Perm.trans ?_ (List.Perm.append_right _ this).symm
      simp only [List.map_append, List.map_cons, List.map_nil, List.cons_append]
      rw [← List.append_assoc]
      exact List.perm_append_comm
    have key2 : ((s.running.erase r).map Prod.snd ++ (s.ready ++ [r]).map Prod.snd).Perm
        (s.running.map Prod.snd ++ s.ready.map Prod.snd) := by
      refine List.Perm.trans ?_ (List.Perm.append_right _ p2).symm
      simp only [List.map_append, List.map_cons, List.map_nil, List.cons_append]
      rw [← List.append_assoc]
      exact List.perm_append_comm
    refine ⟨?_, hi.diag, hi.notFailed, ?_, ⟨?_, ?_⟩, hi.drained, fun hp => ?_, hi.sub⟩
    · refine List.Perm.trans ?_ hi.perm
      refine List.Perm.append_right _ ?_
      simp only [pendingLabels]
      rw [List.append_assoc, List.append_assoc]
      exact List.Perm.append_left _ key2
    · intro hp hne
      obtain ⟨ws, hav, hws⟩ := hi.queue hp hne
      refine ⟨ws, hav, ?_⟩
      refine List.Perm.trans ?_ hws
      rw [List.append_assoc, List.append_assoc]
      exact List.Perm.append_left _ (key Prod.fst)
    · exact ((key Prod.fst).nodup_iff).2 hi.workers.1
    · intro i hi'
      exact hi.workers.2 i ((key Prod.fst).mem_iff.1 hi')
    · have := (hi.final hp).1
      rw [this] at h
      simp at h
  | poll r h hr => exact inv_receive eig tasks nodes s hi r hr (by rw [h]; decide)
  | drain h ht =>
    exact ⟨hi.perm, hi.diag, by simp, by simp, hi.workers, fun _ => ht, by simp, hi.sub⟩
  | collect r h hn hr => exact inv_receive eig tasks nodes s hi r hr (by rw [h]; decide)
  | finished h hn =>
    have hd := hi.drained (by rw [h]; decide)
    refine ⟨hi.perm, hi.diag, by simp, by simp, hi.workers, fun _ => hd, fun _ => ?_, hi.sub⟩
    have := hi.perm.length_eq
    simp only [pendingLabels, hd, List.length_append, List.length_map, List.map_nil, List.length_nil] at this
    have h1 : s.running.length = 0 := by omega
    have h2 : s.ready.length = 0 := by omega
    exact ⟨List.length_eq_zero_iff.1 h1, List.length_eq_zero_iff.1 h2⟩

theorem inv_reach (eig : Label → E) (tasks : List (Nat × Label)) (nodes : Nat) (hn : 1 ≤ nodes) (s : St E)
    (h : Reaches eig tasks nodes s) : Inv eig tasks nodes s := by
  induction h with
  | refl => exact inv_start eig tasks nodes hn
  | tail _ hstep ih => exact inv_step eig tasks nodes _ _ ih hstep

/-- Work left: decreases in every step. -/
def work (s : St E) : Nat :=
  3 * s.todo.length + 2 * s.running.length + s.ready.length
    + (match s.phase with | .scheduling => 2 | .draining => 1 | _ => 0)

theorem length_erase_lt {r : Nat × Label} {l : List (Nat × Label)} (h : r ∈ l) :
    (l.erase r).length + 1 = l.length := by
  have := List.length_pos_of_mem h
  rw [List.length_erase_of_mem h]; omega

theorem work_decreases (eig : Label → E) (n : Nat) (s t : St E) (h : Step eig n s t) : work t < work s := by
  cases h with
  | dispatch h ht =>
    have hl : 0 < s.todo.length := List.length_pos_of_ne_nil ht
    unfold dispatch
    split
    · simp [work, h]
    · rename_i back _
      dsimp only
      generalize (if s.todo.length ≠ 1 then back else 0) = i
      generalize (if s.todo.length ≠ 1 then s.avail.dropLast else s.avail) = av
      split
      · split
        · simp [work, h]
        · simp only [work, h, List.length_dropLast]; omega
      · split
        · simp [work, h]
        · rename_i heq
          simp only [work, h, heq, List.length_cons]; omega
  | finish r h =>
    have := length_erase_lt h
    simp only [work, List.length_append, List.length_singleton]; omega
  | poll r h hr =>
    have := length_erase_lt hr
    simp only [work, receive]; omega
  | drain h ht => simp [work, h]
  | collect r h hn hr =>
    have := length_erase_lt hr
    simp only [work, receive]; omega
  | finished h hn => simp [work, h]

end Verif.Sched
