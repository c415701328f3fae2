import Verif.Sweep.Props
/-!
# C100: what is collected for the density matrices is what the steps worked with
-/

namespace Verif.Sweep
open Verif.Invar Verif.Store Verif.Subspaces
variable {K : Type} [Field K] [LinearOrder K] {Ch E Key : Type}

/-- The entries made for a step: the energies, the number of states on which the
next step is built, the dimension, the structure. -/
def recorded (Nmax : Nat) (r : Rec K Ch E Key) : List (Label × Stored K) × List (Label × Back) :=
  (r.cut.map fun p => (p.1, ⟨p.2.values, nrstored p.2, p.2.dim, decide (r.N + 1 = Nmax)⟩),
   r.cut.map fun p => (p.1, ⟨(r.str.lookup p.1).getD [], nrstored p.2, p.2.dim⟩))

theorem cut_kept {d d' : Diag K} (h : truncatePerform d = .ok d') : ∀ p ∈ d', nrkept p.2 = nrstored p.2 := by
  unfold truncatePerform at h
  induction d generalizing d' with
  | nil =>
    simp [pure, Except.pure] at h
    subst h
    intro p hp
    cases hp
  | cons a l ih =>
    rw [List.mapM_cons] at h
    cases ha : truncOne a with
    | error x => rw [ha] at h; cases h
    | ok b =>
      cases hl : l.mapM truncOne with
      | error x => rw [ha, hl] at h; cases h
      | ok r =>
        rw [ha, hl] at h
        cases h
        intro p hp
        rcases List.mem_cons.mp hp with rfl | hp
        · obtain ⟨bs, _, rfl⟩ := truncOne_ok ha
          rfl
        · exact ih hl p hp

/-- One step makes the entries of that step and no other. -/
theorem step_recorded {V : Env K Ch E Key} {P : Par K} {fuel : Nat} {sw : Sweep} {N : Nat} {s s' : St K Ch E Key}
    (h : step V P fuel sw N s = .ok s') :
    ∃ r, s'.log = s.log ++ [r] ∧ r.N = N ∧ s'.store = upd s.store N (some (recorded P.Nmax r).1) ∧
      s'.back = upd s.back N (some (recorded P.Nmax r).2) := by
  obtain ⟨str, egs, d0, d1, d2, ops1, ops2, hA⟩ := step_ok h
  have hk := cut_kept hA.hcut
  have ho := hA.hout
  refine ⟨_, congrArg St.log ho, rfl, ?_, ?_⟩
  · rw [congrArg St.store ho]
    dsimp only [recorded, thermoSubs]
    congr 2
    refine List.map_congr_left fun p hp => ?_
    rw [hk p hp]
  · rw [congrArg St.back ho]
    dsimp only [recorded, backSubs]
    congr 2
    refine List.map_congr_left fun p hp => ?_
    rw [hk p hp]

theorem loop_recorded {V : Env K Ch E Key} {P : Par K} {fuel : Nat} {sw : Sweep} (n N : Nat) (s s' : St K Ch E Key)
    (h : loop V P fuel sw N n s = .ok s') :
    ∃ l, s'.log = s.log ++ l ∧ l.map Rec.N = List.range' N n ∧
      (∀ r ∈ l, s'.store r.N = some (recorded P.Nmax r).1 ∧ s'.back r.N = some (recorded P.Nmax r).2) ∧
      ∀ m, m < N ∨ N + n ≤ m → s'.store m = s.store m ∧ s'.back m = s.back m := by
  induction n generalizing N s with
  | zero =>
    unfold loop at h
    cases h
    exact ⟨[], by simp, rfl, fun r hr => absurd hr (by simp), fun _ _ => ⟨rfl, rfl⟩⟩
  | succ n ih =>
    unfold loop at h
    cases hs : step V P fuel sw N s with
    | error x => rw [hs] at h; cases h
    | ok s1 =>
      rw [hs] at h
      obtain ⟨r, g1, g2, g3, g4⟩ := step_recorded hs
      obtain ⟨l, k1, k2, k3, k4⟩ := ih (N + 1) s1 h
      refine ⟨r :: l, by rw [k1, g1]; simp, by rw [List.map_cons, g2, k2, List.range'_succ], ?_, ?_⟩
      · intro x hx
        rcases List.mem_cons.mp hx with rfl | hx
        · obtain ⟨a, b⟩ := k4 x.N (by omega)
          rw [a, b, g3, g4, g2]
          simp [upd]
        · exact k3 x hx
      · intro m hm
        obtain ⟨a, b⟩ := k4 m (by omega)
        rw [a, b, g3, g4]
        have : m ≠ N := by omega
        simp [upd, this]

/-- **C100, what is collected.** After the first sweep the spectra and dimensions collected for the density matrices are, for each step, the energies,
the numbers of kept states, the dimensions and the structure with which that step ended. -/
theorem collected (V : Env K Ch E Key) (P : Par K) (fuel : Nat) (i : Seed K Ch E Key)
    (files : Nat → Option (List (Tok K))) (s : St K Ch E Key) (h : first V P fuel i files = .ok s) :
    s.log.map Rec.N = List.range' P.Ninit (P.Nmax - P.Ninit) ∧
    ∀ r ∈ s.log, s.store r.N = some (refer s.gs (recorded P.Nmax r).1) ∧ s.back r.N = some (recorded P.Nmax r).2 := by
  obtain ⟨a, ha, rfl⟩ := first_ok h
  obtain ⟨l, k1, k2, k3, _⟩ := loop_recorded _ _ _ _ ha
  have hl : a.log = l := by rw [k1]; simp [start]
  refine ⟨by dsimp only; rw [hl, k2], ?_⟩
  intro r hr
  obtain ⟨b1, b2⟩ := k3 r (hl ▸ hr)
  dsimp only
  rw [b1, b2]
  exact ⟨rfl, rfl⟩

end Verif.Sweep
