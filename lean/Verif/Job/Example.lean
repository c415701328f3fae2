import Verif.Job.End
/-!
# A concrete job

Two diagonalisations with different parameters, two subspaces; the parameters of the second one depend on the first one.
-/

namespace Verif.Job.Example
open Verif.Invar (Label)
open Verif.Sched

/-- The "eigenvalues" contain the parameters, so results with the parameters of another step are different. -/
def dg (dp : Nat) (m : Mem Int) : Raw Int := ⟨[dp, m.data.sum], if m.data.length = m.size1 * m.size2 then m else ⟨0, 0, []⟩⟩

def ham (k : Nat) (I : Label) : Mem Int := ⟨2, 1, [k, I.sum]⟩

def plan (h : List (List (Label × Raw Int))) : Option (Round Int Nat) :=
  if h.length < 2 then some ⟨h.length + 7, [(2, [1]), (2, [3]), (1, [2])], ham h.length⟩ else none

theorem dg_wf (dp : Nat) (m : Mem Int) : (dg dp m).vec.WF := by
  unfold dg
  by_cases h : m.data.length = m.size1 * m.size2
  · simp only [if_pos h]; exact h
  · simp only [if_neg h]; rfl

theorem plan_wf (h : List (List (Label × Raw Int))) (r : Round Int Nat) (hr : plan h = some r) : ∀ I ∈ r.tasks.map Prod.snd, (r.ham I).WF := by
  intro I _
  unfold plan at hr
  split at hr
  · cases hr; rfl
  · cases hr

theorem plan_ends (hist : List (List (Label × Raw Int))) (h : IsHist dg plan hist) : hist.length ≤ 2 := by
  by_contra hc
  have hlt : 2 < hist.length := by omega
  obtain ⟨r, h1, -⟩ := h 2 _ (List.getElem?_eq_getElem hlt)
  unfold plan at h1
  rw [if_neg (by rw [List.length_take]; omega)] at h1
  cases h1

/-- With any number of workers and any buffering the job comes to its end with the results of the serial program. -/
example (n cap : Nat) : ∃ t e, Reach dg 0 n cap none plan t ∧ Over n t e ∧ e = 0 ∧ IsComplete dg plan t.m.hist := by
  let r : Round Int Nat := ⟨0, [], ham 0⟩
  have h0 : Reach dg 0 n cap none plan (init 0 r) := ⟨r, .refl⟩
  obtain ⟨t, e, h1, h2, h3, -⟩ := job_completes dg_wf plan_wf plan_ends _ h0
  exact ⟨t, e, ⟨r, h1⟩, h2, (h3 rfl).1, (h3 rfl).2⟩

/-- The results of the complete calculation. -/
def result : List (List (Label × Raw Int)) :=
  [[([1], ⟨[7, 1], ham 0 [1]⟩), ([2], ⟨[7, 2], ham 0 [2]⟩), ([3], ⟨[7, 3], ham 0 [3]⟩)],
   [([1], ⟨[8, 2], ham 1 [1]⟩), ([2], ⟨[8, 3], ham 1 [2]⟩), ([3], ⟨[8, 4], ham 1 [3]⟩)]]

theorem result_complete : IsComplete dg plan result := by
  refine ⟨?_, rfl⟩
  intro k d hk
  match k with
  | 0 => cases hk; exact ⟨_, rfl, by decide⟩
  | 1 => cases hk; exact ⟨_, rfl, by decide⟩
  | k + 2 => simp [result] at hk

/-- Every job that has ended has these results. -/
example (n cap : Nat) (s : Sys Int Nat) (h : Reach dg 0 n cap none plan s) (e : Nat) (he : s.m.ph = .ended e) : e = 0 ∧ s.m.hist = result := by
  obtain ⟨h1, h2⟩ := (job_result dg_wf plan_wf s h e he).1 rfl
  exact ⟨h1, complete_unique h2 result_complete⟩

/-- If a file is missing, all processes return the exit code `1`. -/
example (n cap : Nat) : ∃ t, Reach dg 0 n cap (some 1) plan t ∧ Over n t 1 := by
  let r : Round Int Nat := ⟨0, [], ham 0⟩
  have h0 : Reach dg 0 n cap (some 1) plan (init 0 r) := ⟨r, .refl⟩
  obtain ⟨t, e, h1, h2, -, h3⟩ := job_completes dg_wf plan_wf plan_ends _ h0
  obtain ⟨rfl, -⟩ := h3 1 rfl
  exact ⟨t, ⟨r, h1⟩, h2⟩

/-- A state in which a worker diagonalises (one worker that starts to work only when the master has sent everything). -/
example : ∃ s, Reach dg 0 1 9 none plan s ∧ (s.c 1).w = .work 7 [1] (ham 0 [1]) := by
  let r : Round Int Nat := ⟨0, [], ham 0⟩
  have h0 := Relation.ReflTransGen.refl (r := Step dg 0 1 9 none plan) (a := init 0 r)
  have one : ∀ i, 1 ≤ i → i ≤ 1 → i = 1 := by omega
  have h1 := h0.tail (Step.start _ rfl)
  have h2 := h1.tail (Step.started _ rfl (by intro i a b; cases one i a b; decide))
  have h3 := h2.tail (Step.next _ _ rfl rfl)
  have h4 := h3.tail (Step.syncPut _ 1 rfl (by decide))
  have h5 := h4.tail (Step.syncRet _ 1 rfl (by decide))
  have h6 := h5.tail (Step.syncEnd _ 2 rfl (by decide))
  have h7 := h6.tail (Step.castPut _ rfl)
  have h8 := h7.tail (Step.castRet _ rfl (by intro i a b; cases one i a b; decide))
  have h9 := h8.tail (Step.turn _ rfl (by decide))
  have p1 := (h9.tail (Step.sendPut _ 1 _ _ rfl)).tail (Step.sendRet _ 1 _ _ rfl (by decide))
  have p2 := (p1.tail (Step.sendPut _ 1 _ _ rfl)).tail (Step.sendRet _ 1 _ _ rfl (by decide))
  have p3 := (p2.tail (Step.sendPut _ 1 _ _ rfl)).tail (Step.sendRet _ 1 _ _ rfl (by decide))
  have p4 := (p3.tail (Step.sendPut _ 1 _ _ rfl)).tail (Step.sendRet _ 1 _ _ rfl (by decide))
  have p5 := (p4.tail (Step.sendPut _ 1 _ _ rfl)).tail (Step.sendRet _ 1 _ _ rfl (by decide))
  have p6 := (p5.tail (Step.sendPut _ 1 _ _ rfl)).tail (Step.sendRet _ 1 _ _ rfl (by decide))
  have w1 := p6.tail (Step.worker _ 1 _ (by decide) (by decide) rfl trivial)
  have w2 := w1.tail (Step.worker _ 1 _ (by decide) (by decide) rfl trivial)
  have w3 := w2.tail (Step.worker _ 1 _ (by decide) (by decide) rfl trivial)
  have w4 := w3.tail (Step.worker _ 1 _ (by decide) (by decide) rfl trivial)
  have w5 := w4.tail (Step.worker _ 1 _ (by decide) (by decide) rfl trivial)
  have w6 := w5.tail (Step.worker _ 1 _ (by decide) (by decide) rfl trivial)
  have w7 := w6.tail (Step.worker _ 1 _ (by decide) (by decide) rfl trivial)
  have w8 := w7.tail (Step.worker _ 1 _ (by decide) (by decide) rfl trivial)
  have w9 := w8.tail (Step.worker _ 1 _ (by decide) (by decide) rfl trivial)
  exact ⟨_, ⟨r, w9⟩, rfl⟩

end Verif.Job.Example
