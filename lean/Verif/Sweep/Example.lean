import Verif.Sweep.Resume
import Verif.Sweep.Stored
import Verif.Symm.Classes
import Verif.Symm.Structure
import Mathlib.Data.Rat.Defs
import Mathlib.Algebra.Order.Ring.Rat
import Mathlib.Algebra.Field.Rat
/-!
# A small calculation that meets the hypotheses of C100 and C101

Spinless particles, one channel; the "eigensolver" returns the levels `0, 1, 2, …`
shifted by the charge, and unit vectors.
-/

namespace Verif.Sweep.Ex
open Verif.Invar Verif.Store Verif.Subspaces

abbrev Op := List (Label × List ℚ)

def sym : Symm.Symmetry := ⟨Symm.fields_SL, Symm.tab_SL_1ch⟩

def unit (n : Nat) : Mat ℚ := ⟨n, n, (List.range n).map fun i => (List.range n).map fun j => if i = j then 1 else 0⟩

def raw (str : Struct) (I : Label) : Raw ℚ :=
  ⟨(List.range ((str.lookup I).getD []).sum).map fun k : Nat => (k : ℚ) + (I.headD 0 : Int) * (I.headD 0 : Int) - 2,
    unit ((str.lookup I).getD []).sum⟩

def solve (d : Diag ℚ) : List (Label × Raw ℚ) :=
  match Symm.substruct sym (sizes d) with
  | none => []
  | some str => (str.filter fun p => decide (((str.lookup p.1).getD []).sum ≠ 0)).map fun p => (p.1, raw str p.1)

/-- One number for each state. -/
def rows (blocks : List (Mat ℚ)) (nr : Nat) : List ℚ :=
  (List.range nr).map fun i => (blocks.map fun b => ((b.data[i]?).getD []).sum).sum

def trim (s : Symm.Sizes) (x : Op) : Op := List.zipWith (fun s y => (y.1, y.2.take s.2)) s x

def env : Env ℚ Nat Op Nat :=
  { sym := sym
    solve := fun _ _ d _ => solve d
    floq := fun _ _ d => .ok (0, d)
    selected := fun _ _ k => decide (k ≠ 2)
    recalc := fun N _ w k m => .ok (w.map fun p => (p.1, (rows p.2.1 p.2.2).map fun x => x * (N + k + m.length)))
    empty := []
    irreducible := fun N _ w c => .ok (c + N + w.length)
    trim := trim }

def par : Par ℚ :=
  { Ninit := 0, Nmax := 3, trunc := fun _ => ⟨3, 0, 0, 0, 100, false, false⟩, keepLast := true, fixeps := 0
    floquet := false, restart := true, restartfactor := 2, diagratio := 1, scale := fun N => 1 / ((N : ℚ) + 1)
    kept := true, cfsfdm := false, dm := true, removefiles := true, lastStored := none, nan := -1 }

def eig0 : Eig ℚ :=
  { values := ⟨[0], 0, 0, 0, 0, [0], [0], 0⟩, m := ⟨0, 0, []⟩, dim := 1, blocks := [], nrpost := 1, nrstored := 1
    last := false }

def seed : Seed ℚ Nat Op Nat :=
  ⟨[([0], eig0), ([1], eig0)], 1, [(1, [([0], [1]), ([1], [2])]), (2, [])], 5⟩

theorem unit_wf (n : Nat) : (unit n).WF := by
  refine ⟨by simp [unit], ?_⟩
  intro r hr
  obtain ⟨i, _, rfl⟩ := List.mem_map.1 hr
  simp [unit]

theorem substruct_sorted (S : Symm.Symmetry) (sz : Symm.Sizes) (str : Struct) (h : Symm.substruct S sz = some str) :
    Sorted str := by
  unfold Symm.substruct at h
  cases h1 : Symm.newSubspaceSet S sz with
  | none => rw [h1] at h; cases h
  | some ls =>
    rw [h1] at h
    have hk : str.map Prod.fst = ls := by
      have h' : (ls.mapM fun I => do
          let d ← Symm.subspaceDims S sz I
          pure (I, d)) = some str := h
      clear h1 h
      rename' h' => h
      induction ls generalizing str with
      | nil => cases h; rfl
      | cons I ls ih =>
        rw [List.mapM_cons] at h
        cases h2 : Symm.subspaceDims S sz I with
        | none => rw [h2] at h; cases h
        | some d =>
          rw [h2] at h
          cases h3 : (ls.mapM fun I => do
              let d ← Symm.subspaceDims S sz I
              pure (I, d)) with
          | none => rw [h3] at h; cases h
          | some l =>
            rw [h3] at h
            cases h
            rw [List.map_cons, ih l h3]
    have hs : Symm.Sorted ls := by
      unfold Symm.newSubspaceSet at h1
      cases h4 : sz.mapM fun p => S.newSubspaces p.1 with
      | none => rw [h4] at h1; cases h1
      | some all =>
        rw [h4] at h1
        cases h1
        exact (Symm.foldl_setInsert _ [] List.Pairwise.nil).1
    unfold Sorted
    have : (str.map Prod.fst).Pairwise fun a b => Invar.lt a b = true := by rw [hk]; exact hs
    rwa [List.pairwise_map] at this

theorem solve_ok : SolveOK env := by
  intro N c d r str h
  have hs : env.solve N c d r = (str.filter fun p => decide (((str.lookup p.1).getD []).sum ≠ 0)).map
      fun p => (p.1, raw str p.1) := by
    show solve d = _
    unfold solve
    have h' : Symm.substruct sym (sizes d) = some str := h
    rw [h']
  rw [hs]
  refine ⟨sorted_of_keys _ _ (by rw [List.map_map]; rfl) (List.Pairwise.filter _ (substruct_sorted _ _ _ h)), ?_⟩
  intro p hp
  obtain ⟨q, hq, rfl⟩ := List.mem_map.1 hp
  have hq := (List.mem_filter.1 hq).1
  refine ⟨unit_wf _, ?_⟩
  have : (str.lookup q.1).isSome := by
    rw [List.lookup_isSome_iff]
    exact ⟨q, hq, by simp⟩
  obtain ⟨ds, hds⟩ := Option.isSome_iff_exists.1 this
  refine ⟨ds, hds, ?_⟩
  simp [raw, hds, unit]

theorem rows_cut (bs bs' : List (Mat ℚ)) (n nr : Nat) (hn : n ≤ nr)
    (h : bs.mapM (truncMat n) = .ok bs') : (rows bs nr).take n = (rows bs' n).take n := by
  have hlen : (rows bs' n).take n = rows bs' n := List.take_of_length_le (by simp [rows])
  rw [hlen]
  unfold rows
  rw [← List.map_take, List.take_range, Nat.min_eq_left hn]
  refine List.map_congr_left ?_
  intro i hi
  have hi := List.mem_range.1 hi
  congr 1
  refine (mapM_keeps _ _ _ ?_ bs bs' h).symm
  intro a b hb
  unfold truncMat at hb
  split at hb
  · cases hb
    dsimp only
    rw [List.getElem?_take, if_pos hi]
  · cases hb

theorem trim_commutes : TrimCommutes env := by
  intro N str all cut k m x y hall hcut hx hy
  have hx' : (view all).map (fun p => (p.1, (rows p.2.1 p.2.2).map fun x => x * ((N : ℚ) + k + m.length))) = x :=
    Except.ok.inj hx
  have hy' : (view cut).map (fun p => (p.1, (rows p.2.1 p.2.2).map fun x => x * ((N : ℚ) + k + m.length))) = y :=
    Except.ok.inj hy
  clear hx hy
  subst hx' hy'
  show trim _ _ = trim _ _
  unfold truncatePerform at hcut
  unfold trim
  induction all generalizing cut with
  | nil => cases hcut; rfl
  | cons p l ih =>
    obtain ⟨q, l', h1, h2, rfl⟩ := mapM_cons_ok hcut
    obtain ⟨bs, hb, rfl⟩ := truncOne_ok h1
    obtain ⟨_, _, h3, h4⟩ := hall p (by simp)
    have ih := ih l' (fun r hr => hall r (by simp [hr])) h2
    simp only [sizes, view, List.map_cons, List.zipWith_cons_cons] at ih ⊢
    rw [ih]
    congr 2
    have hns : nrstored { p.2 with nrstored := p.2.nrpost, blocks := bs } = p.2.nrpost.toNat := by
      unfold nrstored
      rw [if_neg]
      dsimp only
      omega
    rw [hns, ← List.map_take, ← List.map_take, rows_cut _ _ _ _ h4 hb]

theorem floq_ok : FloqOK env := by
  intro N ops d d' e h
  have h : (Except.ok (0, d) : Except Err (ℚ × Diag ℚ)) = .ok (e, d') := h
  cases h
  exact ⟨rfl, id⟩

/-- Whether the first sweep ends normally, and with how many kept states in each
step and what energy. -/
def report (P : Par ℚ) : Option (List (Nat × Nat × Nat) × Nat × ℚ) :=
  match first env P 5 seed fun _ => none with
  | .error _ => none
  | .ok s => some (s.log.map (fun r => (r.N, (r.all.map fun p => nrstored p.2).sum,
      (r.cut.map fun p => nrstored p.2).sum)), s.chain, s.total)

theorem runs (P : Par ℚ) (h : (report P).isSome = true) : ∃ s, first env P 5 seed (fun _ => none) = .ok s := by
  unfold report at h
  cases hf : first env P 5 seed fun _ => none with
  | error x => rw [hf] at h; cases h
  | ok s => exact ⟨s, rfl⟩

def parFloquet : Par ℚ := { par with floquet := true, trunc := fun _ => ⟨3, 0, 0, 0, 100, false, true⟩ }

theorem report_par : report par = some ([(0, 4, 4), (1, 8, 4), (2, 8, 8)], 9, 4 / 3) := by decide +kernel

theorem report_cfsfdm : (report { par with cfsfdm := true }).isSome = true := by decide +kernel

theorem report_floquet : (report parFloquet).isSome = true := by decide +kernel

theorem recalc_total : ∀ N str w k m, env.selected .dm N k = true → ∃ x, env.recalc N str w k m = .ok x :=
  fun _ _ _ _ _ _ => ⟨_, rfl⟩

/-- Both sweeps end, and C100 applies: the operators are recalculated at the same
stage in both sweeps. -/
example : ∃ s t, first env par 5 seed (fun _ => none) = .ok s ∧ second env par 5 seed s = .ok t ∧
    s.log.map Rec.N = [0, 1, 2] ∧ List.Forall₂ (SameStep env par s.gs) s.log t.log := by
  obtain ⟨s, hs⟩ := runs par (by rw [report_par]; rfl)
  obtain ⟨t, ht⟩ := second_completes env par 5 seed _ s solve_ok rfl rfl rfl (Or.inl rfl) recalc_total hs
  have h := sweeps_agree env par 5 seed _ s t solve_ok rfl rfl rfl (Or.inl rfl) hs ht
  exact ⟨s, t, hs, ht, h.1, h.2.1⟩

/-- The same with operators recalculated from all states in the second sweep. -/
example : recalcKept { par with cfsfdm := true } .nrg ≠ recalcKept { par with cfsfdm := true } .dm ∧
    ∃ s t, first env { par with cfsfdm := true } 5 seed (fun _ => none) = .ok s ∧
      second env { par with cfsfdm := true } 5 seed s = .ok t ∧
      List.Forall₂ (SameStep env { par with cfsfdm := true } s.gs) s.log t.log := by
  obtain ⟨s, hs⟩ := runs _ report_cfsfdm
  obtain ⟨t, ht⟩ := second_completes env _ 5 seed _ s solve_ok rfl rfl rfl (Or.inr trim_commutes) recalc_total hs
  have h := sweeps_agree env _ 5 seed _ s t solve_ok rfl rfl rfl (Or.inr trim_commutes) hs ht
  exact ⟨by decide, s, t, hs, ht, h.2.1⟩

/-- The operator 1 is carried through all steps. -/
example : Carried env 0 3 1 := fun _ _ _ => ⟨rfl, rfl⟩

/-- Resuming. -/
example : ∃ s, step env par 5 .nrg 0 (start seed fun _ => none) = .ok s ∧
    first env { par with lastStored := some 0 } 5 seed s.files = .error .undefined := by
  obtain ⟨s, hs⟩ : ∃ s, step env par 5 .nrg 0 (start seed fun _ => none) = .ok s := by
    obtain ⟨s, hs⟩ := runs par (by rw [report_par]; rfl)
    obtain ⟨a, ha, _⟩ := first_ok hs
    have ha : loop env par 5 .nrg 0 3 (start seed fun _ => none) = .ok a := ha
    unfold loop at ha
    cases h : step env par 5 .nrg 0 (start seed fun _ => none) with
    | error x => rw [h] at ha; cases ha
    | ok s => exact ⟨s, rfl⟩
  exact ⟨s, hs, resume_undefined env par 5 4 0 seed _ s.files s solve_ok rfl rfl rfl (by decide) (by decide) hs rfl⟩

/-- Nothing to resume. -/
example : (0 : Nat) < { par with Ninit := 1 }.Ninit := by decide

/-- Floquet blocks. -/
example : ∃ s, first env parFloquet 5 seed (fun _ => none) = .ok s ∧
    second env parFloquet 5 seed s = .error .undefined := by
  obtain ⟨s, hs⟩ := runs _ report_floquet
  exact ⟨s, hs, floquet_second_undefined env parFloquet 5 seed _ s solve_ok floq_ok rfl rfl rfl (by decide) hs⟩

end Verif.Sweep.Ex
