import Verif.Job.Inv
import Mathlib.Algebra.Order.BigOperators.Group.Finset
import Mathlib.Order.WellFounded
import Mathlib.Data.Prod.Lex
/-!
# Theorems about parallel jobs (C99)

`n` workers, any capacity of the channels, any interleaving. The hypotheses say that matrices have as many elements as rows times columns.
-/

namespace Verif.Job
open Verif.Invar (Label)
open Verif.Sched

variable {R DP : Type} {dg : DP → Mem R → Raw R} {dp0 : DP} {n cap : Nat} {status : Option Nat}
  {plan : List (List (Label × Raw R)) → Option (Round R DP)}

/-- **C99.** When the main process has ended, the results of all diagonalisations are those of the serial program; if the start-up checks have failed, nothing has
been calculated and the exit code is the one that they determine. -/
theorem job_result (hD : ∀ dp m, (dg dp m).vec.WF) (hW : ∀ h r, plan h = some r → ∀ I ∈ r.tasks.map Prod.snd, (r.ham I).WF)
    (s : Sys R DP) (h : Reach dg dp0 n cap status plan s) (e : Nat) (he : s.m.ph = .ended e) :
    (status = none → e = 0 ∧ IsComplete dg plan s.m.hist) ∧ (∀ c, status = some c → e = c ∧ s.m.hist = []) := by
  have hi := jinv_reach hD hW h
  have hm := hi.master
  rw [Master, he] at hm
  rcases hm.2 with ⟨a, b, c⟩ | ⟨a, b⟩
  · exact ⟨fun _ => ⟨b, hi.hist, c⟩, by rw [a]; simp⟩
  · refine ⟨by rw [a]; simp, ?_⟩
    intro c hc
    rw [a] at hc
    cases hc
    exact ⟨rfl, b⟩

theorem isHist_take {hist : List (List (Label × Raw R))} (h : IsHist dg plan hist) (k : Nat) : IsHist dg plan (hist.take k) := by
  intro j d hd
  have hj : j < k := by
    by_contra hc
    rw [List.getElem?_take_eq_none (by omega)] at hd
    cases hd
  rw [List.getElem?_take_of_lt hj] at hd
  obtain ⟨r, a, b⟩ := h j d hd
  refine ⟨r, ?_, b⟩
  rw [List.take_take, min_eq_left hj.le]
  exact a

theorem isHist_prefix {a b : List (List (Label × Raw R))} (ha : IsHist dg plan a) (hb : IsHist dg plan b) (k : Nat) (hk : k ≤ a.length) (hk' : k ≤ b.length) :
    a.take k = b.take k := by
  induction k with
  | zero => simp
  | succ k ih =>
    have e := ih (by omega) (by omega)
    have ga : a[k]? = some a[k] := List.getElem?_eq_getElem _
    have gb : b[k]? = some b[k] := List.getElem?_eq_getElem _
    obtain ⟨r, h1, h2⟩ := ha k _ ga
    obtain ⟨r', h1', h2'⟩ := hb k _ gb
    rw [e, h1'] at h1
    cases h1
    rw [List.take_add_one, List.take_add_one, e, ga, gb, h2, h2']

/-- **C99.** The results do not depend on the number of processes, the schedule or the buffering: two complete calculations with the same input have the same
results. -/
theorem complete_unique {a b : List (List (Label × Raw R))} (ha : IsComplete dg plan a) (hb : IsComplete dg plan b) : a = b := by
  have key : ∀ a b : List (List (Label × Raw R)), IsComplete dg plan a → IsComplete dg plan b → ¬ a.length < b.length := by
    intro a b ha hb hlt
    have e := isHist_prefix ha.1 hb.1 a.length le_rfl hlt.le
    rw [List.take_length] at e
    obtain ⟨r, h1, -⟩ := hb.1 a.length _ (List.getElem?_eq_getElem hlt)
    rw [← e, ha.2] at h1
    cases h1
  have hl : a.length = b.length := le_antisymm (not_lt.1 (key b a hb ha)) (not_lt.1 (key a b ha hb))
  have e := isHist_prefix ha.1 hb.1 a.length le_rfl hl.le
  rw [List.take_length] at e
  rw [e, hl, List.take_length]

/-- A worker whose run ends in a state without a pending send is not waiting for a send to return. -/
theorem free_of_out {c : Cfg R DP} (h : c.out = []) : c.free cap := by
  unfold Cfg.free
  split
  · rw [h]; exact Nat.zero_le _
  · trivial

theorem target_kind (m : Mst R DP) (i : Nat) (h : m.ph ≠ .bad) :
    target status m i = .startup ∨ target status m i = .params ∨ (∃ dp, target status m i = .idle dp) ∨ ∃ e, target status m i = .ended e := by
  unfold target
  cases hp : m.ph with
  | bad => exact absurd hp h
  | starting => cases status <;> simp
  | sync j b => by_cases hc : i < j ∨ (i = j ∧ b = true) <;> simp [hc]
  | exit j b => by_cases hc : i < j ∨ (i = j ∧ b = true) <;> simp [hc]
  | bcast b => cases b <;> simp
  | _ => simp

/-- **C99.** No process ever gets a message or a broadcast that it does not expect, and the scheduler never finds its lists empty. -/
theorem job_no_surprise (hD : ∀ dp m, (dg dp m).vec.WF) (hW : ∀ h r, plan h = some r → ∀ I ∈ r.tasks.map Prod.snd, (r.ham I).WF)
    (s : Sys R DP) (h : Reach dg dp0 n cap status plan s) : s.m.ph ≠ .bad ∧ ∀ i, 1 ≤ i → i ≤ n → (s.c i).w ≠ .bad := by
  have hi := jinv_reach hD hW h
  have hnb : s.m.ph ≠ .bad := by
    intro e
    have hm := hi.master
    rw [Master, e] at hm
    exact hm
  have ev : ∀ {w w' : W R DP} {dn bc o}, Ev dg dp0 w dn bc w' o → w' ≠ .bad → w ≠ .bad := by
    intro w w' dn bc o he hw hb
    subst hb
    rcases he.cases with ⟨e, -⟩ | ⟨c, o', e, -⟩
    · exact hw e.symm
    · cases e.1
  refine ⟨hnb, ?_⟩
  intro i h1 hn
  by_cases hr : i ∈ s.m.st.running.map Prod.fst
  · obtain ⟨⟨i', I⟩, hI, e⟩ := List.mem_map.1 hr
    simp only at e
    subst e
    rcases hi.busy i' h1 hn I hI with ⟨-, -, c⟩ | ⟨-, -, -, g, p, -, c, -⟩
    · exact ev c (by simp)
    · rcases c with ⟨c, -⟩ | ⟨x, t, b, c, -⟩ <;> (rw [c]; simp)
  · refine ev (hi.free i h1 hn hr).2 ?_
    rcases target_kind (status := status) s.m i hnb with e | e | ⟨d, e⟩ | ⟨d, e⟩ <;> (rw [e]; simp)

/-- A worker with a complete job sends something next. -/
theorem ev_work {dp : DP} {I : Label} {m : Mem R} {dn : List (Msg R)} {bc : List (Coll DP)} {w : W R DP} (h : Ev dg dp0 (.work dp I m) dn bc w [])
    (hw : ∀ dp l b, w ≠ .reply dp l b) : w = .work dp I m := by
  rcases h.cases with ⟨e, -⟩ | ⟨c, o', e, h2, h3⟩
  · exact e.symm
  · exfalso
    have ec := e.1
    obtain ⟨l, hl⟩ := sendResult_cons (dg dp m) I
    simp only [wstep, hl] at ec
    cases ec
    simp only [List.nil_append] at h3
    subst h3
    rcases h2.cases with ⟨e2, -⟩ | ⟨c', o'', e2, -, h3⟩
    · exact hw _ _ _ e2.symm
    · have := e2.1
      simp only [wstep] at this
      cases this
      simp at h3

/-- Jobs are running only within a diagonalisation. -/
theorem inRound_of_running {m : Mst R DP} (h : Master dg dp0 n status plan m) (hr : m.st.running ≠ []) : ∃ p, InRound dg n status plan p m := by
  unfold Master at h
  cases hp : m.ph with
  | start => rw [hp] at h; exact absurd h.2.1 hr
  | starting => rw [hp] at h; exact absurd h.2.1 hr
  | plan => rw [hp] at h; exact absurd h.2 hr
  | sync i b => rw [hp] at h; exact absurd h.2.1 hr
  | bcast b => rw [hp] at h; exact absurd h.2.1 hr
  | sched => rw [hp] at h; exact ⟨_, h⟩
  | poll => rw [hp] at h; exact ⟨_, h⟩
  | send i l b => rw [hp] at h; exact ⟨_, h.1⟩
  | read i r f => rw [hp] at h; exact ⟨_, h.1⟩
  | drain => rw [hp] at h; exact ⟨_, h⟩
  | exit i b => rw [hp] at h; exact absurd h.2.1 hr
  | ended e => rw [hp] at h; exact absurd h.1 hr
  | bad => rw [hp] at h; exact absurd h (fun h => h)

/-- **C99.** A worker that diagonalises has the parameters, the subspace and the Hamiltonian of the diagonalisation in progress: never those of an earlier one, never
incomplete, even if it has been slow and several messages were waiting. No other worker has the same job. -/
theorem job_current (hD : ∀ dp m, (dg dp m).vec.WF) (hW : ∀ h r, plan h = some r → ∀ I ∈ r.tasks.map Prod.snd, (r.ham I).WF)
    (s : Sys R DP) (h : Reach dg dp0 n cap status plan s) (i : Nat) (h1 : 1 ≤ i) (hn : i ≤ n) (dp : DP) (I : Label) (m : Mem R)
    (hw : (s.c i).w = .work dp I m) :
    IsHist dg plan s.m.hist ∧ plan s.m.hist = some s.m.round ∧ dp = s.m.round.dp ∧ m = s.m.round.ham I ∧ I ∈ s.m.round.tasks.map Prod.snd ∧
      ((s.m.round.tasks.map Prod.snd).Nodup → ∀ j, 1 ≤ j → j ≤ n → ∀ dp' m', (s.c j).w = .work dp' I m' → j = i) := by
  have hi := jinv_reach hD hW h
  have hnb := (job_no_surprise hD hW s h).1
  have key : ∀ j, 1 ≤ j → j ≤ n → ∀ dp J m, (s.c j).w = .work dp J m → (j, J) ∈ s.m.st.running ∧ dp = s.m.round.dp ∧ m = s.m.round.ham J := by
    intro j a b dp J m hw
    by_cases hr : j ∈ s.m.st.running.map Prod.fst
    · obtain ⟨⟨j', K⟩, hK, e⟩ := List.mem_map.1 hr
      simp only at e
      subst e
      rcases hi.busy j' a b K hK with ⟨-, -, c⟩ | ⟨-, -, -, g, p, -, c, -⟩
      · rw [hw] at c
        have := ev_work c (by simp)
        cases this
        exact ⟨hK, rfl, rfl⟩
      · rw [hw] at c
        rcases c with ⟨c, -⟩ | ⟨x, t, b, c, -⟩ <;> cases c
    · exfalso
      have hf := (hi.free j a b hr).2
      rw [hw] at hf
      rcases target_kind (status := status) s.m j hnb with e | e | ⟨d, e⟩ | ⟨d, e⟩ <;>
        (rw [e] at hf; have := ev_work hf (by simp); cases this)
  obtain ⟨k1, k2, k3⟩ := key i h1 hn dp I m hw
  obtain ⟨p, hr⟩ := inRound_of_running hi.master (List.ne_nil_of_mem k1)
  refine ⟨hi.hist, hr.plan, k2, k3, running_task hr i I k1, ?_⟩
  intro hnd j a b dp' m' hw'
  obtain ⟨l1, -, -⟩ := key j a b dp' I m' hw'
  have hnd' : (s.m.st.running.map Prod.snd).Nodup := by
    have := hr.inv.perm.nodup_iff.2 hnd
    unfold pendingLabels at this
    exact (List.nodup_append.1 (List.nodup_append.1 (List.nodup_append.1 this).1).1).2.1
  have e : ((j, I) : Nat × Label) = (i, I) := List.inj_on_of_nodup_map hnd' l1 k1 rfl
  exact congrArg Prod.fst e

theorem over_or_step {s : Sys R DP} (hi : JInv dg dp0 n status plan s) {e : Nat} (he : s.m.ph = .ended e) :
    (∃ t, Step dg dp0 n cap status plan s t) ∨ Over n s e := by
  have hm := hi.master
  rw [Master, he] at hm
  by_cases hall : ∀ i, 1 ≤ i → i ≤ n → s.c i = ⟨.ended e, [], [], []⟩
  · exact Or.inr ⟨he, hall⟩
  · left
    push Not at hall
    obtain ⟨i, h1, hn, hne⟩ := hall
    have hf := hi.free i h1 hn (by simp [hm.1])
    have tg : target status s.m i = .ended e := by unfold target; rw [he]
    obtain ⟨ho, hev⟩ := hf
    rw [tg] at hev
    have hgo := Ev.go (x := []) (by rw [List.append_nil]; exact hev) (by
      by_contra hc
      push Not at hc
      obtain ⟨c1, c2⟩ := hc
      obtain ⟨c3, c4, -⟩ := c2 rfl
      refine hne ?_
      cases hcc : s.c i with
      | mk w dn bc out =>
        rw [hcc] at c1 c3 c4 ho
        simp only at c1 c3 c4 ho
        subst c1 c3 c4 ho
        rfl) (s.c i).out
    obtain ⟨c, hc⟩ := hgo
    exact ⟨_, .worker s i c h1 hn hc (free_of_out ho)⟩

/-- A worker without a job that has unread input can go on. -/
theorem free_go {s : Sys R DP} (hi : JInv dg dp0 n status plan s) {i : Nat} (h1 : 1 ≤ i) (hn : i ≤ n) (hr : s.m.st.running = [])
    (hne : (s.c i).dn ≠ [] ∨ (s.c i).bc ≠ []) : ∃ t, Step dg dp0 n cap status plan s t := by
  obtain ⟨ho, hev⟩ := hi.free i h1 hn (by simp [hr])
  obtain ⟨c, hc⟩ := Ev.go (x := []) (by rw [List.append_nil]; exact hev) (by tauto) (s.c i).out
  exact ⟨_, .worker s i c h1 hn hc (free_of_out ho)⟩

/-- A worker with a job goes on, or a part of its result can be read. -/
theorem busy_go {s : Sys R DP} (hD : ∀ dp m, (dg dp m).vec.WF) (hi : JInv dg dp0 n status plan s) {i : Nat} {I : Label} (h1 : 1 ≤ i) (hn : i ≤ n) (hI : (i, I) ∈ s.m.st.running)
    (hrest : rest s.m.ph i = []) (hne : ∀ r f, s.m.ph = .read i r f → ∀ I e, r ≠ .fin I e) :
    (∃ t, Step dg dp0 n cap status plan s t) ∨ ∃ g x l r, ReadBy s.m.ph i g ∧ (s.c i).out = x :: l ∧ Rd.run .start g = some r ∧ tagOf x = r.want := by
  rcases hi.busy i h1 hn I hI with ⟨ho, -, hev⟩ | ⟨q1, q2, -, g, pend, q4, q5, q6⟩
  · left
    have hfree := free_of_out (cap := cap) ho
    rw [hrest, List.append_nil] at hev
    rcases hev.cases with ⟨e1, e2, e3, -⟩ | ⟨c, o', hc, -⟩
    · refine ⟨_, .worker s i _ h1 hn (by
        unfold wstep
        rw [e1]) hfree⟩
    · have := wstep_frame dg dp0 _ _ [] [] (s.c i).out hc.1
      simp only [List.append_nil] at this
      exact ⟨_, .worker s i _ h1 hn this hfree⟩
  · cases ho : (s.c i).out with
    | nil =>
      left
      have hfree := free_of_out (cap := cap) ho
      rcases q5 with ⟨e1, e2⟩ | ⟨x, t, b, e1, -⟩
      · -- the whole result has been read: impossible
        exfalso
        rw [ho, e2, List.append_nil, List.append_nil] at q6
        cases hp : s.m.ph with
        | read j r f =>
          rw [hp] at q4
          simp only [ReadBy] at q4
          by_cases hj : j = i
          · subst hj
            rw [if_pos rfl] at q4
            exact hne r f hp _ _ (rd_start_fin g _ _ (hD _ _) q4 q6)
          · rw [if_neg hj] at q4
            subst q4
            cases q6
        | _ =>
          rw [hp] at q4
          simp only [ReadBy] at q4
          subst q4
          cases q6
      · cases b with
        | false => exact ⟨_, .worker s i _ h1 hn (by unfold wstep; rw [e1]) hfree⟩
        | true => exact ⟨_, .worker s i _ h1 hn (by unfold wstep; rw [e1]) hfree⟩
    | cons x l =>
      right
      have hg : ∃ r, Rd.run .start g = some r := by
        cases hp : s.m.ph with
        | read j r f =>
          rw [hp] at q4
          simp only [ReadBy] at q4
          by_cases hj : j = i
          · rw [if_pos hj] at q4; exact ⟨r, q4⟩
          · rw [if_neg hj] at q4; subst q4; exact ⟨_, rfl⟩
        | _ =>
          rw [hp] at q4
          simp only [ReadBy] at q4
          subst q4
          exact ⟨_, rfl⟩
      obtain ⟨r, hr⟩ := hg
      obtain ⟨r', a, -⟩ := rd_next _ I (hD _ _) g x (l ++ pend) r hr (by rw [← q6, ho]; simp)
      exact ⟨g, x, l, r, q4, rfl, hr, Rd.step_tag _ _ _ a⟩

/-- **C99.** No deadlock, whatever the buffering: in every state of a job either some process can go on, or all processes have returned, with the same exit code, and
all messages have been received. -/
theorem job_no_deadlock (hD : ∀ dp m, (dg dp m).vec.WF) (hW : ∀ h r, plan h = some r → ∀ I ∈ r.tasks.map Prod.snd, (r.ham I).WF)
    (s : Sys R DP) (h : Reach dg dp0 n cap status plan s) : (∃ t, Step dg dp0 n cap status plan s t) ∨ ∃ e, Over n s e := by
  have hi := jinv_reach hD hW h
  have hm := hi.master
  cases hp : s.m.ph with
  | start => exact Or.inl ⟨_, .start s hp⟩
  | starting =>
    rw [Master, hp] at hm
    by_cases hc : ∀ i, 1 ≤ i → i ≤ n → (s.c i).bc.length ≤ cap
    · exact Or.inl ⟨_, .started s hp hc⟩
    · push Not at hc
      obtain ⟨i, a, b, hc⟩ := hc
      exact Or.inl (free_go hi a b hm.2.1 (Or.inr (by intro e; rw [e] at hc; simp at hc)))
  | plan =>
    cases hpl : plan s.m.hist with
    | none => exact Or.inl ⟨_, .last s hp hpl⟩
    | some r => exact Or.inl ⟨_, .next s r hp hpl⟩
  | sync i b =>
    rw [Master, hp] at hm
    obtain ⟨-, hr, -, a, c, -⟩ := hm
    cases b with
    | false =>
      by_cases hn : i ≤ n
      · exact Or.inl ⟨_, .syncPut s i hp hn⟩
      · exact Or.inl ⟨_, .syncEnd s i hp (by omega)⟩
    | true =>
      by_cases hc : (s.c i).dn.length ≤ cap
      · exact Or.inl ⟨_, .syncRet s i hp hc⟩
      · exact Or.inl (free_go hi a (c rfl) hr (Or.inl (by intro e; rw [e] at hc; simp at hc)))
  | bcast b =>
    rw [Master, hp] at hm
    cases b with
    | false => exact Or.inl ⟨_, .castPut s hp⟩
    | true =>
      by_cases hc : ∀ i, 1 ≤ i → i ≤ n → (s.c i).bc.length ≤ cap
      · exact Or.inl ⟨_, .castRet s hp hc⟩
      · push Not at hc
        obtain ⟨i, a, b, hc⟩ := hc
        exact Or.inl (free_go hi a b hm.2.1 (Or.inr (by intro e; rw [e] at hc; simp at hc)))
  | sched =>
    by_cases ht : s.m.st.todo = []
    · exact Or.inl ⟨_, .sched s hp ht⟩
    · exact Or.inl ⟨_, .turn s hp ht⟩
  | send i l b =>
    rw [Master, hp] at hm
    obtain ⟨hr, hl, hrun⟩ := hm
    obtain ⟨x, l, rfl⟩ := List.exists_cons_of_ne_nil hl
    cases b with
    | false => exact Or.inl ⟨_, .sendPut s i x l hp⟩
    | true =>
      by_cases hc : (s.c i).dn.length ≤ cap
      · exact Or.inl ⟨_, .sendRet s i x l hp hc⟩
      · left
        obtain ⟨a, b⟩ := running_range hr i hrun
        obtain ⟨⟨i', I⟩, hI, e⟩ := List.mem_map.1 hrun
        simp only at e
        subst e
        have hd : (s.c i').dn ≠ [] := by intro e; rw [e] at hc; simp at hc
        rcases hi.busy i' a b I hI with ⟨ho, -, hev⟩ | ⟨q, -⟩
        · obtain ⟨c, hc⟩ := hev.go (Or.inl hd) (s.c i').out
          exact ⟨_, .worker s i' c a b hc (free_of_out ho)⟩
        · exact absurd q hd
  | poll => exact Or.inl ⟨_, .pollNone s hp⟩
  | read i r f =>
    left
    rw [Master, hp] at hm
    obtain ⟨hr, hrun, hnf⟩ := hm
    obtain ⟨a, b⟩ := running_range hr i hrun
    obtain ⟨⟨i', I⟩, hI, e⟩ := List.mem_map.1 hrun
    simp only at e
    subst e
    rcases busy_go (cap := cap) hD hi a b hI (by rw [hp]; rfl) (by rintro r' f' e; rw [hp] at e; cases e; exact hnf) with h | ⟨g, x, l, r', h1, h2, h3, h4⟩
    · exact h
    · rw [hp] at h1
      simp only [ReadBy, if_true] at h1
      rw [h1] at h3
      cases h3
      exact ⟨_, .read s i' r f x l hp (by rw [h2]; exact recvTag_head _ _ _ h4)⟩
  | drain =>
    rw [Master, hp] at hm
    by_cases hd : s.m.st.done.length = s.m.round.tasks.length
    · exact Or.inl ⟨_, .ret s hp hd⟩
    · left
      have hrun : s.m.st.running ≠ [] := by
        intro e
        have hl := hm.inv.perm.length_eq
        have h3 := hm.inv.drained (by rw [hm.phase]; decide)
        rw [pendingLabels, h3, e, hm.ready] at hl
        simp at hl
        exact hd hl
      obtain ⟨⟨i, I⟩, l, e⟩ := List.exists_cons_of_ne_nil hrun
      have hI : (i, I) ∈ s.m.st.running := by rw [e]; exact List.mem_cons_self
      obtain ⟨a, b⟩ := running_range hm i (List.mem_map_of_mem (f := Prod.fst) hI)
      rcases busy_go (cap := cap) hD hi a b hI (by rw [hp]; rfl) (by rintro r' f' e; rw [hp] at e; cases e) with h | ⟨g, x, l, r', h1, h2, h3, h4⟩
      · exact h
      · rw [hp] at h1
        simp only [ReadBy] at h1
        subst h1
        cases h3
        exact ⟨_, .collect s i hp hd a b ⟨_, by rw [h2]; exact recvTag_head _ _ _ h4⟩⟩
  | exit i b =>
    rw [Master, hp] at hm
    obtain ⟨-, hr, -, a, c, -⟩ := hm
    cases b with
    | false =>
      by_cases hn : i ≤ n
      · exact Or.inl ⟨_, .exitPut s i hp hn⟩
      · exact Or.inl ⟨_, .exitEnd s i hp (by omega)⟩
    | true =>
      by_cases hc : (s.c i).dn.length ≤ cap
      · exact Or.inl ⟨_, .exitRet s i hp hc⟩
      · exact Or.inl (free_go hi a (c rfl) hr (Or.inl (by intro e; rw [e] at hc; simp at hc)))
  | ended e =>
    rcases over_or_step (cap := cap) hi hp with h | h
    · exact Or.inl h
    · exact Or.inr ⟨e, h⟩
  | bad => rw [Master, hp] at hm; exact absurd hm (fun h => h)

end Verif.Job
