import Verif.Job.Model
import Verif.Sched.Lemmas
/-!
# Helper lemmas about workers and about reading results
-/

namespace Verif.Job
open Verif.Invar (Label)
open Verif.Store (mapSet)
open Verif.Sched

variable {R DP : Type} (dg : DP → Mem R → Raw R) (dp0 : DP)

/-! ## Channels -/

theorem recvTag_head (t : Tag) (m : Msg R) (l : List (Msg R)) (h : tagOf m = t) : recvTag t (m :: l) = some (m, l) := by
  rw [recvTag, if_pos h]

theorem recvTag_append (t : Tag) (l x : List (Msg R)) (m : Msg R) (r : List (Msg R)) (h : recvTag t l = some (m, r)) :
    recvTag t (l ++ x) = some (m, r ++ x) := by
  induction l generalizing r with
  | nil => cases h
  | cons a l ih =>
    rw [List.cons_append, recvTag]
    rw [recvTag] at h
    by_cases ha : tagOf a = t
    · rw [if_pos ha] at h ⊢
      cases h; rfl
    · rw [if_neg ha] at h ⊢
      cases hl : recvTag t l with
      | none => rw [hl] at h; cases h
      | some q =>
        rw [hl] at h
        obtain ⟨q1, q2⟩ := q
        cases h
        rw [ih _ hl]; rfl

theorem takeMsg_append (t : Option Tag) (l x : List (Msg R)) (m : Msg R) (r : List (Msg R)) (h : takeMsg t l = some (m, r)) :
    takeMsg t (l ++ x) = some (m, r ++ x) := by
  cases t with
  | some t => exact recvTag_append t l x m r h
  | none =>
    cases l with
    | nil => cases h
    | cons a l => cases h; rfl

theorem takeMsg_nil (t : Option Tag) : takeMsg t ([] : List (Msg R)) = none := by cases t <;> rfl

/-! ## Steps of a worker -/

/-- The step does not depend on what comes later, or on what has been sent before. -/
theorem wstep_frame (c c' : Cfg R DP) (x : List (Msg R)) (y : List (Coll DP)) (p : List (Msg R)) (h : wstep dg dp0 c = some c') :
    wstep dg dp0 ⟨c.w, c.dn ++ x, c.bc ++ y, p ++ c.out⟩ = some ⟨c'.w, c'.dn ++ x, c'.bc ++ y, p ++ c'.out⟩ := by
  obtain ⟨w, dn, bc, out⟩ := c
  have get : ∀ w : W R DP, ∀ t, w.want = some t → (wstep dg dp0 ⟨w, dn, bc, out⟩ = match takeMsg t dn with
      | none => none | some (m, r) => some ⟨w.eat m, r, bc, out⟩) →
      (wstep dg dp0 ⟨w, dn ++ x, bc ++ y, p ++ out⟩ = match takeMsg t (dn ++ x) with
      | none => none | some (m, r) => some ⟨w.eat m, r, bc ++ y, p ++ out⟩) → wstep dg dp0 ⟨w, dn, bc, out⟩ = some c' →
      wstep dg dp0 ⟨w, dn ++ x, bc ++ y, p ++ out⟩ = some ⟨c'.w, c'.dn ++ x, c'.bc ++ y, p ++ c'.out⟩ := by
    intro w t _ e1 e2 h
    rw [e1] at h
    rw [e2]
    cases hm : takeMsg t dn with
    | none => rw [hm] at h; cases h
    | some q =>
      rw [hm] at h
      obtain ⟨m, r⟩ := q
      cases h
      rw [takeMsg_append t dn x m r hm]
  cases w with
  | startup =>
    rcases bc with _ | ⟨b, bc⟩
    · cases h
    · rcases b with (_ | e) | d <;> (cases h; rfl)
  | params =>
    rcases bc with _ | ⟨b, bc⟩
    · cases h
    · rcases b with e | d <;> (cases h; rfl)
  | work dp I m => cases h; rfl
  | reply dp l b =>
    rcases l with _ | ⟨m, l⟩
    · cases b <;> (cases h; rfl)
    · cases b
      · cases h
        simp only [wstep, List.append_assoc]
      · cases h; rfl
  | ended e => cases h
  | bad => cases h
  | idle dp => exact get _ _ rfl rfl rfl h
  | getI dp => exact get _ _ rfl rfl rfl h
  | getA dp I => exact get _ _ rfl rfl rfl h
  | getB dp I a => exact get _ _ rfl rfl rfl h
  | rows dp I a b d n => exact get _ _ rfl rfl rfl h

/-- What is sent in a step is added at the end. -/
theorem wstep_out (w : W R DP) (dn : List (Msg R)) (bc : List (Coll DP)) (out : List (Msg R)) (c' : Cfg R DP)
    (h : wstep dg dp0 ⟨w, dn, bc, out⟩ = some c') :
    ∃ e, c'.out = out ++ e ∧ wstep dg dp0 ⟨w, dn, bc, []⟩ = some ⟨c'.w, c'.dn, c'.bc, e⟩ := by
  have get : ∀ w : W R DP, ∀ t, w.want = some t → (∀ out, wstep dg dp0 ⟨w, dn, bc, out⟩ = match takeMsg t dn with
      | none => none | some (m, r) => some ⟨w.eat m, r, bc, out⟩) → wstep dg dp0 ⟨w, dn, bc, out⟩ = some c' →
      ∃ e, c'.out = out ++ e ∧ wstep dg dp0 ⟨w, dn, bc, []⟩ = some ⟨c'.w, c'.dn, c'.bc, e⟩ := by
    intro w t _ e1 h
    rw [e1] at h
    rw [e1]
    cases hm : takeMsg t dn with
    | none => rw [hm] at h; cases h
    | some q =>
      rw [hm] at h
      obtain ⟨m, r⟩ := q
      cases h
      exact ⟨[], (List.append_nil _).symm, rfl⟩
  cases w with
  | startup =>
    rcases bc with _ | ⟨b, bc⟩
    · cases h
    · rcases b with (_ | e) | d <;> (cases h; exact ⟨[], (List.append_nil _).symm, rfl⟩)
  | params =>
    rcases bc with _ | ⟨b, bc⟩
    · cases h
    · rcases b with e | d <;> (cases h; exact ⟨[], (List.append_nil _).symm, rfl⟩)
  | work dp I m => cases h; exact ⟨[], (List.append_nil _).symm, rfl⟩
  | reply dp l b =>
    rcases l with _ | ⟨m, l⟩
    · cases b <;> (cases h; exact ⟨[], (List.append_nil _).symm, rfl⟩)
    · cases b
      · cases h; exact ⟨[m], rfl, rfl⟩
      · cases h; exact ⟨[], (List.append_nil _).symm, rfl⟩
  | ended e => cases h
  | bad => cases h
  | idle dp => exact get _ _ rfl (fun _ => rfl) h
  | getI dp => exact get _ _ rfl (fun _ => rfl) h
  | getA dp I => exact get _ _ rfl (fun _ => rfl) h
  | getB dp I a => exact get _ _ rfl (fun _ => rfl) h
  | rows dp I a b d n => exact get _ _ rfl (fun _ => rfl) h

/-- A step that takes a message takes the first one, whatever its tag. -/
def Orderly (c : Cfg R DP) : Prop :=
  match c.w.want with
  | none => True
  | some none => True
  | some (some t) => ∃ m l, c.dn = m :: l ∧ tagOf m = t

/-- Orderly steps. -/
def Ord (c c' : Cfg R DP) : Prop := wstep dg dp0 c = some c' ∧ Orderly c

/-- Runs of a worker in which all messages are taken in the order in which they come. -/
abbrev Run : Cfg R DP → Cfg R DP → Prop := Relation.ReflTransGen (Ord dg dp0)

theorem Orderly.frame {c : Cfg R DP} (h : Orderly c) (x : List (Msg R)) (y : List (Coll DP)) (p : List (Msg R)) :
    Orderly ⟨c.w, c.dn ++ x, y, p⟩ := by
  unfold Orderly at h ⊢
  revert h
  cases c.w.want with
  | none => intro _; trivial
  | some t =>
    cases t with
    | none => intro _; trivial
    | some t =>
      rintro ⟨m, l, h1, h2⟩
      exact ⟨m, l ++ x, by simp [h1], h2⟩

theorem Run.frame {c c' : Cfg R DP} (h : Run dg dp0 c c') (x : List (Msg R)) (y : List (Coll DP)) (p : List (Msg R)) :
    Run dg dp0 ⟨c.w, c.dn ++ x, c.bc ++ y, p ++ c.out⟩ ⟨c'.w, c'.dn ++ x, c'.bc ++ y, p ++ c'.out⟩ := by
  induction h with
  | refl => exact .refl
  | tail _ hs ih => exact ih.tail ⟨wstep_frame dg dp0 _ _ x y p hs.1, hs.2.frame x _ _⟩

/-- Nothing is taken back. -/
theorem Run.unframe {c c' : Cfg R DP} (h : Run dg dp0 c c') :
    ∃ e, c'.out = c.out ++ e ∧ Run dg dp0 ⟨c.w, c.dn, c.bc, []⟩ ⟨c'.w, c'.dn, c'.bc, e⟩ := by
  induction h with
  | refl => exact ⟨[], (List.append_nil _).symm, .refl⟩
  | tail h1 hs ih =>
    rename_i b d
    obtain ⟨e, he, hr⟩ := ih
    obtain ⟨e', he', hw⟩ := wstep_out dg dp0 b.w b.dn b.bc b.out d hs.1
    refine ⟨e ++ e', by rw [he', he, List.append_assoc], hr.tail ⟨?_, ?_⟩⟩
    · have := wstep_frame dg dp0 _ _ [] [] e hw
      simpa using this
    · simpa using hs.2.frame [] b.bc e

/-- A worker in state `w` with the given input takes all of it, sends `o`, and is in state `w'`. -/
def Ev (w : W R DP) (dn : List (Msg R)) (bc : List (Coll DP)) (w' : W R DP) (o : List (Msg R)) : Prop :=
  Run dg dp0 ⟨w, dn, bc, []⟩ ⟨w', [], [], o⟩

variable {dg dp0}

theorem Ev.refl (w : W R DP) : Ev dg dp0 w [] [] w [] := Relation.ReflTransGen.refl

theorem Ev.then {w w1 w2 : W R DP} {dn x : List (Msg R)} {bc y : List (Coll DP)} {o p : List (Msg R)} (h : Ev dg dp0 w dn bc w1 o)
    (h' : Ev dg dp0 w1 x y w2 p) : Ev dg dp0 w (dn ++ x) (bc ++ y) w2 (o ++ p) := by
  have h1 := h.frame dg dp0 x y []
  have h2 := h'.frame dg dp0 [] [] o
  simp only [List.nil_append, List.append_nil] at h1 h2
  exact h1.trans h2

theorem Ev.step {w w' : W R DP} {dn : List (Msg R)} {bc : List (Coll DP)} {c : Cfg R DP} {o : List (Msg R)}
    (hs : Ord dg dp0 ⟨w, dn, bc, []⟩ c) (h : Ev dg dp0 c.w c.dn c.bc w' o) : Ev dg dp0 w dn bc w' (c.out ++ o) := by
  refine Relation.ReflTransGen.head hs ?_
  have := h.frame dg dp0 [] [] c.out
  simpa using this

/-- The first step. -/
theorem Ev.cases {w w' : W R DP} {dn : List (Msg R)} {bc : List (Coll DP)} {o : List (Msg R)} (h : Ev dg dp0 w dn bc w' o) :
    (w = w' ∧ dn = [] ∧ bc = [] ∧ o = []) ∨
      ∃ c o', Ord dg dp0 ⟨w, dn, bc, []⟩ c ∧ Ev dg dp0 c.w c.dn c.bc w' o' ∧ o = c.out ++ o' := by
  rcases Relation.ReflTransGen.cases_head h with h | ⟨c, h1, h2⟩
  · simp only [Cfg.mk.injEq] at h
    exact Or.inl ⟨h.1, h.2.1, h.2.2.1, h.2.2.2.symm⟩
  · obtain ⟨e, he, hr⟩ := Run.unframe dg dp0 h2
    exact Or.inr ⟨c, e, h1, hr, he⟩

/-- A step of the worker follows the run, unless the run has come to its end. -/
theorem Ev.follow {w w' : W R DP} {dn x : List (Msg R)} {bc : List (Coll DP)} {o out : List (Msg R)} {c : Cfg R DP}
    (h : Ev dg dp0 w (dn ++ x) bc w' o) (hs : wstep dg dp0 ⟨w, dn, bc, out⟩ = some c) :
    (w = w' ∧ dn = [] ∧ x = [] ∧ bc = [] ∧ o = []) ∨
      ∃ e o', c.out = out ++ e ∧ Ev dg dp0 c.w (c.dn ++ x) c.bc w' o' ∧ o = e ++ o' := by
  obtain ⟨e, he, hw⟩ := wstep_out dg dp0 w dn bc out c hs
  have hf := wstep_frame dg dp0 _ _ x [] [] hw
  simp only [List.nil_append, List.append_nil] at hf
  rcases h.cases with ⟨h1, h2, h3, h4⟩ | ⟨d, o', h1, h2, h3⟩
  · obtain ⟨h2, h2'⟩ := List.append_eq_nil_iff.1 h2
    exact Or.inl ⟨h1, h2, h2', h3, h4⟩
  · have : some d = some _ := h1.1.symm.trans hf
    cases this
    exact Or.inr ⟨e, o', he, h2, h3⟩

/-- A worker with unread input can go on. -/
theorem Ev.go {w w' : W R DP} {dn x : List (Msg R)} {bc : List (Coll DP)} {o : List (Msg R)} (h : Ev dg dp0 w (dn ++ x) bc w' o)
    (hne : dn ≠ [] ∨ (x = [] ∧ (bc ≠ [] ∨ w ≠ w' ∨ o ≠ []))) (out : List (Msg R)) : ∃ c, wstep dg dp0 ⟨w, dn, bc, out⟩ = some c := by
  rcases h.cases with ⟨h1, h2, h3, h4⟩ | ⟨d, o', h1, h2, h3⟩
  · exfalso
    obtain ⟨h2, h2'⟩ := List.append_eq_nil_iff.1 h2
    rcases hne with h | ⟨_, h | h | h⟩
    · exact h h2
    · exact h h3
    · exact h h1
    · exact h h4
  · rcases hne with hd | ⟨rfl, _⟩
    · obtain ⟨m, l, rfl⟩ := List.exists_cons_of_ne_nil hd
      have hw := h1.1
      have ho := h1.2
      cases w with
      | startup =>
        rcases bc with _ | ⟨b, bc⟩
        · cases hw
        · rcases b with (_ | e) | d <;> exact ⟨_, rfl⟩
      | params =>
        rcases bc with _ | ⟨b, bc⟩
        · cases hw
        · rcases b with e | d <;> exact ⟨_, rfl⟩
      | work dp I m => exact ⟨_, rfl⟩
      | reply dp l b =>
        rcases l with _ | ⟨m, l⟩
        · cases b <;> exact ⟨_, rfl⟩
        · cases b <;> exact ⟨_, rfl⟩
      | ended e => cases hw
      | bad => cases hw
      | idle dp => exact ⟨_, rfl⟩
      | getI dp =>
        obtain ⟨m', l', e, ht⟩ := ho
        cases e
        exact ⟨_, by simp only [wstep, W.want, takeMsg, recvTag_head _ _ _ ht]; rfl⟩
      | getA dp I =>
        obtain ⟨m', l', e, ht⟩ := ho
        cases e
        exact ⟨_, by simp only [wstep, W.want, takeMsg, recvTag_head _ _ _ ht]; rfl⟩
      | getB dp I a =>
        obtain ⟨m', l', e, ht⟩ := ho
        cases e
        exact ⟨_, by simp only [wstep, W.want, takeMsg, recvTag_head _ _ _ ht]; rfl⟩
      | rows dp I a b d n =>
        obtain ⟨m', l', e, ht⟩ := ho
        cases e
        exact ⟨_, by simp only [wstep, W.want, takeMsg, recvTag_head _ _ _ ht]; rfl⟩
    · have := wstep_frame dg dp0 _ _ [] [] out h1.1
      simp only [List.append_nil] at this
      exact ⟨_, by simpa using this⟩

/-! ## What workers do with the messages of the master -/

theorem ord_take (w : W R DP) (m : Msg R) (l : List (Msg R)) (bc : List (Coll DP)) (t : Option Tag) (hw : w.want = some t)
    (ht : ∀ t', t = some t' → tagOf m = t') : Ord dg dp0 ⟨w, m :: l, bc, []⟩ ⟨w.eat m, l, bc, []⟩ := by
  have take : takeMsg t (m :: l) = some (m, l) := by
    cases t with
    | none => rfl
    | some t' => exact recvTag_head _ _ _ (ht t' rfl)
  refine ⟨?_, ?_⟩
  · cases w <;> first | cases hw | skip
    all_goals (simp only [wstep, W.want] at take ⊢; rw [take])
  · unfold Orderly
    simp only
    rw [hw]
    cases t with
    | none => trivial
    | some t' => exact ⟨m, l, rfl, ht t' rfl⟩

theorem ev_take (w : W R DP) (m : Msg R) (t : Option Tag) (hw : w.want = some t) (ht : ∀ t', t = some t' → tagOf m = t') :
    Ev dg dp0 w [m] [] (w.eat m) [] :=
  Relation.ReflTransGen.single (ord_take w m [] [] t hw ht)

theorem ev_exit (dp : DP) : Ev dg dp0 (.idle dp : W R DP) [.exit] [] (.ended 0) [] := ev_take _ _ none rfl (by simp)
theorem ev_sync (dp : DP) : Ev dg dp0 (.idle dp : W R DP) [.sync ()] [] .params [] := ev_take _ _ none rfl (by simp)
theorem ev_params (dp : DP) : Ev dg dp0 (.params : W R DP) [] [.params dp] (.idle dp) [] :=
  Relation.ReflTransGen.single ⟨rfl, trivial⟩
theorem ev_continue : Ev dg dp0 (.startup : W R DP) [] [.status none] (.idle dp0) [] := Relation.ReflTransGen.single ⟨rfl, trivial⟩
theorem ev_stop (e : Nat) : Ev dg dp0 (.startup : W R DP) [] [.status (some e)] (.ended e) [] := Relation.ReflTransGen.single ⟨rfl, trivial⟩

theorem parts_cons (data : List R) (len n : Nat) :
    (List.range (n + 1)).map (fun i => (Msg.part ((data.drop (i * len)).take len) : Msg R)) =
      .part (data.take len) :: (List.range n).map (fun i => .part (((data.drop len).drop (i * len)).take len)) := by
  rw [List.range_succ_eq_map]
  simp only [List.map_cons, List.map_map, Nat.zero_mul, List.drop_zero]
  congr 1
  refine List.map_congr_left fun i _ => ?_
  simp only [Function.comp, Nat.succ_eq_add_one, Nat.succ_mul, List.drop_drop]
  rw [Nat.add_comm]

theorem ev_rows (dp : DP) (I : Label) (a b : Nat) (n : Nat) (d data : List R) (h : data.length = n * b) :
    Ev dg dp0 (W.next dp I a b d n) ((List.range n).map fun i => .part ((data.drop (i * b)).take b)) [] (.work dp I ⟨a, b, d ++ data⟩) [] := by
  induction n generalizing d data with
  | zero =>
    have : data = [] := List.length_eq_zero_iff.1 (by omega)
    subst this
    simp only [List.append_nil, List.range_zero, List.map_nil]
    exact Ev.refl _
  | succ n ih =>
    rw [Nat.succ_mul] at h
    have hl : (data.take b).length = b := by rw [List.length_take]; omega
    rw [parts_cons]
    have h1 : Ev dg dp0 (W.next dp I a b d (n + 1)) [.part (data.take b)] [] (W.next dp I a b (d ++ data.take b) n) [] := by
      have := ev_take (dg := dg) (dp0 := dp0) (W.rows dp I a b d (n + 1)) (.part (data.take b)) (some .part) rfl (by rintro _ ⟨⟩; rfl)
      simp only [W.eat, if_pos hl] at this
      exact this
    have h2 := ih (d ++ data.take b) (data.drop b) (by rw [List.length_drop]; omega)
    rw [List.append_assoc, List.take_append_drop] at h2
    exact h1.then h2

/-- A job is taken, and the worker then holds the matrix. -/
theorem ev_job (dp : DP) (I : Label) (m : Mem R) (h : m.WF) : Ev dg dp0 (.idle dp) (sendJob I m) [] (.work dp I m) [] := by
  have h1 : Ev dg dp0 (.idle dp) [(.diag : Msg R)] [] (.getI dp) [] := ev_take _ _ none rfl (by simp)
  have h2 : Ev dg dp0 (.getI dp) [(.invar I : Msg R)] [] (.getA dp I) [] := ev_take _ _ (some .invar) rfl (by rintro _ ⟨⟩; rfl)
  have h3 : Ev dg dp0 (.getA dp I) [(.size m.size1 : Msg R)] [] (.getB dp I m.size1) [] := ev_take _ _ (some .size) rfl (by rintro _ ⟨⟩; rfl)
  have h4 : Ev dg dp0 (.getB dp I m.size1) [(.size m.size2 : Msg R)] [] (W.next dp I m.size1 m.size2 [] m.size1) [] :=
    ev_take _ _ (some .size) rfl (by rintro _ ⟨⟩; rfl)
  have h5 := ev_rows (dg := dg) (dp0 := dp0) dp I m.size1 m.size2 m.size1 [] m.data h
  exact (((h1.then h2).then h3).then h4).then h5

/-! ## Reading results -/

/-- Reading several messages. -/
def Rd.run : Rd R → List (Msg R) → Option (Rd R)
  | r, [] => some r
  | r, m :: l => (r.step m).bind fun r => Rd.run r l

theorem Rd.run_append (r : Rd R) (l l' : List (Msg R)) : Rd.run r (l ++ l') = (Rd.run r l).bind fun r => Rd.run r l' := by
  induction l generalizing r with
  | nil => rfl
  | cons m l ih =>
    simp only [List.cons_append, Rd.run]
    cases r.step m with
    | none => rfl
    | some r' => exact ih r'

theorem rd_rows (v : List R) (a b n : Nat) (d data : List R) (h : data.length = n * b) :
    Rd.run (Rd.next v a b d n) ((List.range n).map fun i => .part ((data.drop (i * b)).take b)) = some (.gotM v ⟨a, b, d ++ data⟩) := by
  induction n generalizing d data with
  | zero =>
    have : data = [] := List.length_eq_zero_iff.1 (by omega)
    subst this
    simp only [List.append_nil, List.range_zero, List.map_nil]
    rfl
  | succ n ih =>
    rw [Nat.succ_mul] at h
    have hl : (data.take b).length = b := by rw [List.length_take]; omega
    rw [parts_cons]
    have h2 := ih (d ++ data.take b) (data.drop b) (by rw [List.length_drop]; omega)
    rw [List.append_assoc, List.take_append_drop] at h2
    simp only [Rd.run, Rd.next, Rd.step, if_pos hl, Option.bind_some]
    exact h2

theorem rd_result (e : Raw R) (I : Label) (h : e.vec.WF) : Rd.run .start (sendResult e I) = some (.fin I e) := by
  have h5 := rd_rows e.val e.vec.size1 e.vec.size2 e.vec.size1 [] e.vec.data h
  have : sendResult e I = .vec e.val :: .size e.vec.size1 :: .size e.vec.size2 ::
      (((List.range e.vec.size1).map fun i => (.part ((e.vec.data.drop (i * e.vec.size2)).take e.vec.size2) : Msg R)) ++ [.invar I]) := by
    simp [sendResult, sendMatrix]
  rw [this]
  simp only [Rd.run, Rd.step, Option.bind_some]
  rw [Rd.run_append, h5]
  rfl

theorem Rd.step_tag (r r' : Rd R) (m : Msg R) (h : r.step m = some r') : tagOf m = r.want := by
  cases r <;> cases m <;> first | rfl | cases h | skip
  all_goals (rename_i n; cases n <;> simp [Rd.step] at h)

theorem Rd.fin_step (I : Label) (e : Raw R) (m : Msg R) : (Rd.fin I e).step m = none := by cases m <;> rfl

/-- After a part of a result, the next message is the expected one; the whole result is stored. -/
theorem rd_next (e : Raw R) (I : Label) (h : e.vec.WF) (g : List (Msg R)) (x : Msg R) (l : List (Msg R)) (r : Rd R)
    (hg : Rd.run .start g = some r) (hx : g ++ x :: l = sendResult e I) :
    ∃ r', r.step x = some r' ∧ Rd.run .start (g ++ [x]) = some r' ∧ (∀ I' e', r' = .fin I' e' → I' = I ∧ e' = e ∧ l = []) ∧
      (l = [] → r' = .fin I e) := by
  have hr := rd_result e I h
  rw [← hx, Rd.run_append, hg] at hr
  simp only [Option.bind_some, Rd.run] at hr
  cases hs : r.step x with
  | none => rw [hs] at hr; cases hr
  | some r' =>
    rw [hs] at hr
    simp only [Option.bind_some] at hr
    refine ⟨r', rfl, ?_, ?_, ?_⟩
    · rw [Rd.run_append, hg]
      simp [Rd.run, hs]
    · rintro I' e' rfl
      cases l with
      | nil => cases hr; exact ⟨rfl, rfl, rfl⟩
      | cons y l =>
        simp only [Rd.run, Rd.fin_step] at hr
        cases hr
    · rintro rfl
      simp only [Rd.run] at hr
      exact Option.some.inj hr

theorem rd_start_fin (g : List (Msg R)) (e : Raw R) (I : Label) (h : e.vec.WF) (hg : Rd.run .start g = some r) (x : g = sendResult e I) : r = .fin I e := by
  rw [x, rd_result e I h] at hg
  exact (Option.some.inj hg).symm

end Verif.Job
