import Verif.Job.Props
import Mathlib.Order.Interval.Finset.Nat
/-!
# Parallel jobs come to an end (C99)
-/

namespace Verif.Job
open Verif.Invar (Label)
open Verif.Sched

variable {R DP : Type} {dg : DP → Mem R → Raw R} {dp0 : DP} {n cap : Nat} {status : Option Nat}
  {plan : List (List (Label × Raw R)) → Option (Round R DP)}

/-! ## A measure -/

/-- Steps of a worker without input. -/
def W.left (dg : DP → Mem R → Raw R) : W R DP → Nat
  | .work dp I m => 2 * (sendResult (DP := Unit) (dg dp m) I).length + 3
  | .reply _ l b => 2 * l.length + (if b then 1 else 2)
  | _ => 0

/-- Unread input of a worker. -/
def Cfg.input (c : Cfg R DP) : Nat := c.dn.length + c.bc.length

theorem recvTag_length (t : Tag) (l : List (Msg R)) (m : Msg R) (r : List (Msg R)) (h : recvTag t l = some (m, r)) : l.length = r.length + 1 := by
  induction l generalizing r with
  | nil => cases h
  | cons a l ih =>
    rw [recvTag] at h
    by_cases ha : tagOf a = t
    · rw [if_pos ha] at h; cases h; rfl
    · rw [if_neg ha] at h
      cases hl : recvTag t l with
      | none => rw [hl] at h; cases h
      | some q =>
        rw [hl] at h
        obtain ⟨q1, q2⟩ := q
        cases h
        simp [ih _ hl]

theorem takeMsg_length (t : Option Tag) (l : List (Msg R)) (m : Msg R) (r : List (Msg R)) (h : takeMsg t l = some (m, r)) : l.length = r.length + 1 := by
  cases t with
  | some t => exact recvTag_length t l m r h
  | none =>
    cases l with
    | nil => cases h
    | cons a l => cases h; rfl

theorem wstep_decreases (c c' : Cfg R DP) (h : wstep dg dp0 c = some c') :
    c'.input < c.input ∨ (c'.input = c.input ∧ c'.w.left dg < c.w.left dg) := by
  obtain ⟨w, dn, bc, out⟩ := c
  have get : ∀ w : W R DP, ∀ t, (wstep dg dp0 ⟨w, dn, bc, out⟩ = match takeMsg t dn with
      | none => none | some (m, r) => some ⟨w.eat m, r, bc, out⟩) → wstep dg dp0 ⟨w, dn, bc, out⟩ = some c' →
      c'.input < (⟨w, dn, bc, out⟩ : Cfg R DP).input ∨ (c'.input = (⟨w, dn, bc, out⟩ : Cfg R DP).input ∧ c'.w.left dg < w.left dg) := by
    intro w t e1 h
    rw [e1] at h
    cases hm : takeMsg t dn with
    | none => rw [hm] at h; cases h
    | some q =>
      rw [hm] at h
      obtain ⟨m, r⟩ := q
      cases h
      have := takeMsg_length t dn m r hm
      left
      simp only [Cfg.input]
      omega
  cases w with
  | startup =>
    rcases bc with _ | ⟨b, bc⟩
    · cases h
    · rcases b with (_ | e) | d <;> (cases h; left; simp [Cfg.input])
  | params =>
    rcases bc with _ | ⟨b, bc⟩
    · cases h
    · rcases b with e | d <;> (cases h; left; simp [Cfg.input])
  | work dp I m => cases h; right; simp [Cfg.input, W.left]
  | reply dp l b =>
    rcases l with _ | ⟨m, l⟩
    · cases b <;> (cases h; right; simp [Cfg.input, W.left])
    · cases b
      · cases h; right; simp [Cfg.input, W.left]
      · cases h
        right
        cases l <;> simp [Cfg.input, W.left]
        omega
  | ended e => cases h
  | bad => cases h
  | idle dp => exact get _ none rfl h
  | getI dp => exact get _ (some .invar) rfl h
  | getA dp I => exact get _ (some .size) rfl h
  | getB dp I a => exact get _ (some .size) rfl h
  | rows dp I a b d n => exact get _ (some .part) rfl h

/-- Order of the phases. -/
def Ph.rank : Ph R → Nat
  | .start => 10
  | .starting => 9
  | .plan => 8
  | .sync _ _ => 7
  | .bcast _ => 6
  | .sched => 5
  | .send _ _ _ => 5
  | .poll => 5
  | .read _ _ f => if f then 4 else 5
  | .drain => 4
  | .exit _ _ => 3
  | .ended _ => 2
  | .bad => 0

/-- Work left in a phase. -/
def Mst.todo (n : Nat) (m : Mst R DP) : Nat :=
  match m.ph with
  | .sync i b => 2 * (n + 1 - i) + (if b then 0 else 1)
  | .exit i b => 2 * (n + 1 - i) + (if b then 0 else 1)
  | .bcast b => if b then 0 else 1
  | _ => 2 * m.st.todo.length + m.st.running.length

def Ph.sub : Ph R → Nat
  | .send _ _ _ => 3
  | .poll => 2
  | .drain => 2
  | .read _ _ _ => 1
  | _ => 0

def Rd.rank : Rd R → Nat
  | .start => 5
  | .gotV _ => 4
  | .gotA _ _ => 3
  | .rows _ _ _ _ _ => 2
  | .gotM _ _ => 1
  | .fin _ _ => 0

def Ph.msgs : Ph R → Nat
  | .send _ l b => 2 * l.length + (if b then 0 else 1)
  | .read _ r _ => r.rank
  | _ => 0

def Ph.rows : Ph R → Nat
  | .read _ (.rows _ _ _ _ k) _ => k
  | _ => 0

/-- The measure: lexicographic order. -/
def mu (dg : DP → Mem R → Raw R) (n K : Nat) (s : Sys R DP) : ℕ ×ₗ ℕ ×ₗ ℕ ×ₗ ℕ ×ₗ ℕ ×ₗ ℕ ×ₗ ℕ ×ₗ ℕ :=
  toLex (K - s.m.hist.length, toLex (s.m.ph.rank, toLex (s.m.todo n, toLex (s.m.ph.sub, toLex (s.m.ph.msgs, toLex (s.m.ph.rows,
    toLex (∑ i ∈ Finset.Icc 1 n, (s.c i).input, ∑ i ∈ Finset.Icc 1 n, (s.c i).w.left dg)))))))

theorem mu_lt {K : Nat} {s t : Sys R DP} (h : K - t.m.hist.length < K - s.m.hist.length ∨ (K - t.m.hist.length = K - s.m.hist.length ∧
    (t.m.ph.rank < s.m.ph.rank ∨ (t.m.ph.rank = s.m.ph.rank ∧ (t.m.todo n < s.m.todo n ∨ (t.m.todo n = s.m.todo n ∧
    (t.m.ph.sub < s.m.ph.sub ∨ (t.m.ph.sub = s.m.ph.sub ∧ (t.m.ph.msgs < s.m.ph.msgs ∨ (t.m.ph.msgs = s.m.ph.msgs ∧ t.m.ph.rows < s.m.ph.rows)))))))))) :
    mu dg n K t < mu dg n K s := by
  simp only [mu, Prod.Lex.toLex_lt_toLex]
  omega

theorem mu_worker {K : Nat} {s : Sys R DP} {i : Nat} {c : Cfg R DP} (h1 : 1 ≤ i) (hn : i ≤ n) (hw : wstep dg dp0 (s.c i) = some c) :
    mu dg n K ⟨s.m, upd s.c i c⟩ < mu dg n K s := by
  have hmem : i ∈ Finset.Icc 1 n := Finset.mem_Icc.2 ⟨h1, hn⟩
  simp only [mu, Prod.Lex.toLex_lt_toLex, lt_self_iff_false, false_or, true_and]
  rcases wstep_decreases _ _ hw with h | ⟨h, h'⟩
  · left
    refine Finset.sum_lt_sum ?_ ⟨i, hmem, by rw [upd_same]; exact h⟩
    intro j _
    by_cases e : j = i
    · subst e; rw [upd_same]; exact h.le
    · rw [upd_ne _ _ _ _ e]
  · right
    refine ⟨Finset.sum_congr rfl ?_, Finset.sum_lt_sum ?_ ⟨i, hmem, by rw [upd_same]; exact h'⟩⟩
    · intro j _
      by_cases e : j = i
      · subst e; rw [upd_same]; exact h
      · rw [upd_ne _ _ _ _ e]
    · intro j _
      by_cases e : j = i
      · subst e; rw [upd_same]; exact h'.le
      · rw [upd_ne _ _ _ _ e]

theorem Rd.step_rank (r r' : Rd R) (x : Msg R) (i : Nat) (f : Bool) (h : r.step x = some r') :
    (Ph.read i r' f).msgs < (Ph.read i r f).msgs ∨ ((Ph.read i r' f).msgs = (Ph.read i r f).msgs ∧ (Ph.read i r' f).rows < (Ph.read i r f).rows) := by
  have nx : ∀ (v : List R) (a b : Nat) (d : List R) (k : Nat), (Rd.next v a b d k = .gotM v ⟨a, b, d⟩ ∧ k = 0) ∨ Rd.next v a b d k = .rows v a b d k := by
    intro v a b d k
    cases k with
    | zero => exact Or.inl ⟨rfl, rfl⟩
    | succ k => exact Or.inr rfl
  cases r with
  | start => cases x <;> cases h; simp [Ph.msgs, Rd.rank]
  | gotV v => cases x <;> cases h; simp [Ph.msgs, Rd.rank]
  | gotA v a =>
    cases x <;> cases h
    rename_i b
    rcases nx v a b [] a with ⟨e, -⟩ | e <;> (rw [e]; simp [Ph.msgs, Rd.rank])
  | rows v a b d k =>
    cases k with
    | zero => cases x <;> cases h
    | succ k =>
      cases x <;> first | cases h | skip
      rename_i p
      simp only [Rd.step] at h
      split at h
      · cases h
        rcases nx v a b (d ++ p) k with ⟨e, -⟩ | e <;> (rw [e]; simp [Ph.msgs, Rd.rank, Ph.rows])
      · cases h
  | gotM v m => cases x <;> cases h; simp [Ph.msgs, Rd.rank]
  | fin I e => rw [Rd.fin_step] at h; cases h

theorem pick_todo (s : St (Raw R)) (i : Nat) (I : Label) (todo : List (Nat × Label)) (av : List Nat) (h : pick s = some (i, I, todo, av)) :
    s.todo.length = todo.length + 1 := by
  unfold pick at h
  cases ha : s.avail.getLast? with
  | none => rw [ha] at h; cases h
  | some back =>
    rw [ha] at h
    dsimp only at h
    revert h
    generalize (if s.todo.length ≠ 1 then back else 0) = k
    generalize (if s.todo.length ≠ 1 then s.avail.dropLast else s.avail) = av'
    intro h
    by_cases hk : k = 0
    · rw [if_pos hk] at h
      cases ht : s.todo.getLast? with
      | none => rw [ht] at h; cases h
      | some q =>
        rw [ht] at h
        obtain ⟨q1, q2⟩ := q
        cases h
        have hne : s.todo ≠ [] := by rintro e; rw [e] at ht; cases ht
        have := List.length_pos_of_ne_nil hne
        rw [List.length_dropLast]; omega
    · rw [if_neg hk] at h
      cases ht : s.todo with
      | nil => rw [ht] at h; cases h
      | cons q l =>
        rw [ht] at h
        obtain ⟨q1, q2⟩ := q
        cases h
        rfl

/-- Every step decreases the measure. -/
theorem mu_step {K : Nat} (hD : ∀ dp m, (dg dp m).vec.WF) (hW : ∀ h r, plan h = some r → ∀ I ∈ r.tasks.map Prod.snd, (r.ham I).WF)
    (hK : ∀ hist, IsHist dg plan hist → hist.length ≤ K) {s t : Sys R DP} (hi : JInv dg dp0 n status plan s)
    (hs : Step dg dp0 n cap status plan s t) : mu dg n K t < mu dg n K s := by
  have ht := jinv_step hD hW hi hs
  have hm := hi.master
  cases hs with
  | worker i c h1 hn hw hf => exact mu_worker h1 hn hw
  | start hp => apply mu_lt; simp [hp, Ph.rank]
  | started hp hc => apply mu_lt; cases status <;> simp [hp, Ph.rank]
  | next r hp hpl => apply mu_lt; simp [hp, Ph.rank]
  | last hp hpl => apply mu_lt; simp [hp, Ph.rank]
  | syncPut i hp hn => apply mu_lt; simp [hp, Ph.rank, Mst.todo, Sys.put]
  | syncRet i hp hc =>
    rw [Master, hp] at hm
    have := hm.2.2.2.2.1 rfl
    refine mu_lt (Or.inr ⟨rfl, Or.inr ⟨by rw [hp]; rfl, Or.inl ?_⟩⟩)
    simp only [hp, Mst.todo, if_true, Bool.false_eq_true, if_false]
    omega
  | syncEnd i hp hn => apply mu_lt; simp [hp, Ph.rank]
  | castPut hp => apply mu_lt; simp [hp, Ph.rank, Mst.todo]
  | castRet hp hc => apply mu_lt; simp [hp, Ph.rank]
  | turn hp hn =>
    apply mu_lt
    have hb := ht.master
    simp only at hb
    unfold turn at hb ⊢
    cases hpk : pick s.m.st with
    | none => rw [hpk] at hb; exact absurd hb (fun h => h)
    | some q =>
      obtain ⟨i, I, todo, av⟩ := q
      have := pick_todo _ _ _ _ _ hpk
      by_cases h0 : i = 0
      · simp only [h0, if_true]
        refine Or.inr ⟨trivial, Or.inr ⟨by rw [hp]; rfl, Or.inl ?_⟩⟩
        simp only [hp, Mst.todo]
        omega
      · simp only [h0, if_false]
        refine Or.inr ⟨trivial, Or.inr ⟨by rw [hp]; rfl, Or.inl ?_⟩⟩
        simp only [hp, Mst.todo, List.length_cons]
        omega
  | sched hp hn => apply mu_lt; simp [hp, Ph.rank]
  | sendPut i x l hp => apply mu_lt; simp [hp, Ph.rank, Mst.todo, Sys.put, Ph.sub, Ph.msgs]
  | sendRet i x l hp hc =>
    apply mu_lt
    by_cases hl : l = []
    · simp [hp, Ph.rank, Mst.todo, Ph.sub, hl]
    · simp only [if_neg hl]
      refine Or.inr ⟨trivial, Or.inr ⟨by rw [hp]; rfl, Or.inr ⟨by simp only [hp, Mst.todo], Or.inr ⟨by rw [hp]; rfl, Or.inl ?_⟩⟩⟩⟩
      simp only [hp, Ph.msgs, if_true, Bool.false_eq_true, if_false, List.length_cons]
      omega
  | pollNone hp => apply mu_lt; simp [hp, Ph.rank, Mst.todo, Ph.sub]
  | pollSome i hp h1 hn hpr => apply mu_lt; simp [hp, Ph.rank, Mst.todo, Ph.sub]
  | read i r f x l hp hx =>
    apply mu_lt
    have hb := ht.master
    simp only at hb
    cases hs : r.step x with
    | none =>
      unfold Mst.reads at hb
      rw [hs] at hb
      exact absurd hb (fun h => h)
    | some r' =>
      by_cases hfin : ∃ I e, r' = .fin I e
      · obtain ⟨I, e, rfl⟩ := hfin
        -- the job is removed from the list
        have hr : s.m.reads i r f x = s.m.store i I e f := by unfold Mst.reads; rw [hs]
        simp only [hr]
        rw [Master, hp] at hm
        obtain ⟨hr1, hrun, -⟩ := hm
        obtain ⟨⟨i', I'⟩, hI, e'⟩ := List.mem_map.1 hrun
        simp only at e'
        subst e'
        obtain ⟨a, b⟩ := running_range hr1 i' hrun
        have hI' : I = I' := by
          rcases hi.busy i' a b I' hI with ⟨-, q, -⟩ | ⟨-, -, -, g, pend, q4, -, q6⟩
          · rw [hp] at q; exact absurd rfl q
          · rw [hp] at q4
            simp only [ReadBy, if_true] at q4
            cases ho : (s.c i').out with
            | nil => rw [ho] at hx; cases hx
            | cons y t =>
              obtain ⟨r2, s1, -, s3, -⟩ := rd_next _ I' (hD _ _) g y (t ++ pend) r q4 (by rw [← q6, ho]; simp)
              rw [ho, recvTag_head _ _ _ (Rd.step_tag r r2 y s1)] at hx
              cases hx
              rw [hs] at s1
              cases s1
              exact (s3 I e rfl).1
        subst hI'
        have hlen : (s.m.st.running.erase (i', I)).length + 1 = s.m.st.running.length := length_erase_lt hI
        unfold Mst.store
        cases f with
        | false =>
          refine Or.inr ⟨rfl, Or.inr ⟨by rw [hp]; rfl, Or.inl ?_⟩⟩
          simp only [hp, Mst.todo, Bool.false_eq_true, if_false]
          omega
        | true =>
          refine Or.inr ⟨rfl, Or.inr ⟨by rw [hp]; rfl, Or.inl ?_⟩⟩
          simp only [hp, Mst.todo, if_true]
          omega
      · have hr : s.m.reads i r f x = { s.m with ph := .read i r' f } := by
          unfold Mst.reads; rw [hs]
          cases r' <;> first | rfl | exact absurd ⟨_, _, rfl⟩ hfin
        simp only [hr]
        have := Rd.step_rank r r' x i f hs
        simp only [hp, Mst.todo, Ph.sub, Ph.rank]
        tauto
  | collect i hp hd h1 hn hpr => apply mu_lt; simp [hp, Ph.rank, Mst.todo, Ph.sub]
  | ret hp hd =>
    have := hK _ ht.hist
    simp only [List.length_append, List.length_singleton] at this
    apply mu_lt
    left
    simp only [List.length_append, List.length_singleton]
    omega
  | exitPut i hp hn => apply mu_lt; simp [hp, Ph.rank, Mst.todo, Sys.put]
  | exitRet i hp hc =>
    rw [Master, hp] at hm
    have := hm.2.2.2.2.1 rfl
    refine mu_lt (Or.inr ⟨rfl, Or.inr ⟨by rw [hp]; rfl, Or.inl ?_⟩⟩)
    simp only [hp, Mst.todo, if_true, Bool.false_eq_true, if_false]
    omega
  | exitEnd i hp hn => apply mu_lt; simp [hp, Ph.rank]

/-- **C99.** If the serial program makes at most `K` calls of `diagonalisations`, then no job runs for ever. -/
theorem job_terminates {K : Nat} (hD : ∀ dp m, (dg dp m).vec.WF) (hW : ∀ h r, plan h = some r → ∀ I ∈ r.tasks.map Prod.snd, (r.ham I).WF)
    (hK : ∀ hist, IsHist dg plan hist → hist.length ≤ K) :
    ¬ ∃ f : Nat → Sys R DP, Reach dg dp0 n cap status plan (f 0) ∧ ∀ k, Step dg dp0 n cap status plan (f k) (f (k + 1)) := by
  rintro ⟨f, h0, hs⟩
  have hr : ∀ k, JInv dg dp0 n status plan (f k) := by
    intro k
    induction k with
    | zero => exact jinv_reach hD hW h0
    | succ k ih => exact jinv_step hD hW ih (hs k)
  have hwf : WellFounded (fun a b : Sys R DP => mu dg n K a < mu dg n K b) := InvImage.wf (mu dg n K) wellFounded_lt
  have := hwf.has_min (Set.range f) ⟨f 0, 0, rfl⟩
  obtain ⟨_, ⟨k, rfl⟩, hmin⟩ := this
  exact hmin (f (k + 1)) ⟨k + 1, rfl⟩ (mu_step hD hW hK (hr k) (hs k))

/-- **C99.** From every state a job can come to its end, and then it has the results of the serial program; with `job_terminates`: under every schedule it does. -/
theorem job_completes {K : Nat} (hD : ∀ dp m, (dg dp m).vec.WF) (hW : ∀ h r, plan h = some r → ∀ I ∈ r.tasks.map Prod.snd, (r.ham I).WF)
    (hK : ∀ hist, IsHist dg plan hist → hist.length ≤ K) (s : Sys R DP) (h : Reach dg dp0 n cap status plan s) :
    ∃ t e, Relation.ReflTransGen (Step dg dp0 n cap status plan) s t ∧ Over n t e ∧
      (status = none → e = 0 ∧ IsComplete dg plan t.m.hist) ∧ (∀ c, status = some c → e = c ∧ t.m.hist = []) := by
  have hwf : WellFounded (fun a b : Sys R DP => mu dg n K a < mu dg n K b) := InvImage.wf (mu dg n K) wellFounded_lt
  induction s using hwf.induction with
  | _ s ih =>
    rcases job_no_deadlock hD hW s h with ⟨t, ht⟩ | ⟨e, he⟩
    · have hrt : Reach dg dp0 n cap status plan t := by
        obtain ⟨r, hr⟩ := h
        exact ⟨r, hr.tail ht⟩
      obtain ⟨u, e, h1, h2⟩ := ih t (mu_step hD hW hK (jinv_reach hD hW h) ht) hrt
      exact ⟨u, e, h1.head ht, h2⟩
    · exact ⟨s, e, .refl, he, job_result hD hW s h e he.1⟩

end Verif.Job
