import Verif.Sweep.Rel
/-!
# C100: both sweeps of a calculation work with the same states
-/

namespace Verif.Sweep
open Verif.Invar Verif.Store Verif.Subspaces
variable {K : Type} [Field K] [LinearOrder K] {Ch E Key : Type}

/-- Energies of a stored spectrum referred to `gs`. -/
def refer (gs : K) (st : List (Label × Stored K)) : List (Label × Stored K) :=
  st.map fun p => (p.1, { p.2 with values := { p.2.values with absGS := gs } })

theorem loop_rel {V : Env K Ch E Key} {P : Par K} {fuel : Nat} {gs : K}
    (hV : SolveOK V) (hf : P.floquet = false) (hdm : P.dm = true) (hr : P.lastStored = none)
    (ht : recalcKept P .nrg = recalcKept P .dm ∨ TrimCommutes V) (n N : Nat) (hN : P.Ninit ≤ N)
    (a a' b b' : St K Ch E Key) (hrel : Rel V P gs a'.files N a b)
    (ha : loop V P fuel .nrg N n a = .ok a') (hb : loop V P fuel .dm N n b = .ok b') :
    b'.chain = a'.chain ∧ b'.gs = b.gs ∧ b'.total = b.total ∧
    (∃ l1 l2, a'.log = a.log ++ l1 ∧ b'.log = b.log ++ l2 ∧ l1.map Rec.N = List.range' N n ∧
      List.Forall₂ (SameStep V P gs) l1 l2) ∧
    (∀ m, N ≤ m → m < N + n → ∃ st bk, a'.store m = some st ∧ b'.store m = some (refer gs st) ∧
      a'.back m = some bk ∧ b'.back m = some bk) ∧
    (∀ m, m < N ∨ N + n ≤ m → a'.store m = a.store m ∧ b'.store m = b.store m ∧
      a'.back m = a.back m ∧ b'.back m = b.back m) := by
  induction n generalizing N a b with
  | zero =>
    unfold loop at ha hb
    cases ha; cases hb
    exact ⟨hrel.chain, rfl, rfl, ⟨[], [], by simp, by simp, rfl, .nil⟩, fun m h1 h2 => by omega,
      fun m _ => ⟨rfl, rfl, rfl, rfl⟩⟩
  | succ n ih =>
    unfold loop at ha hb
    cases hsa : step V P fuel .nrg N a with
    | error x => rw [hsa] at ha; cases ha
    | ok a1 =>
      cases hsb : step V P fuel .dm N b with
      | error x => rw [hsb] at hb; cases hb
      | ok b1 =>
        rw [hsa] at ha
        rw [hsb] at hb
        dsimp only at ha hb
        have hF : a'.files N = a1.files N := loop_files ha N (by omega)
        obtain ⟨h1, ⟨r1, r2, h2, h3, hrN, h4⟩, ⟨st, h5, h6⟩, ⟨bk, h7, h8⟩, h9⟩ :=
          step_rel hV hf hdm hr hN ht hrel hsa hF hsb
        obtain ⟨g1, g2, g3, ⟨l1, l2, g4, g5, g6, g7⟩, g8, g9⟩ := ih (N + 1) (by omega) a1 b1 h1 ha hb
        refine ⟨g1, ?_, by rw [g3, h9], ⟨r1 :: l1, r2 :: l2, by rw [g4, h2]; simp, by rw [g5, h3]; simp, ?_, .cons h4 g7⟩,
          ?_, ?_⟩
        · rw [g2, h1.gs, hrel.gs]
        · rw [List.map_cons, hrN, g6, List.range'_succ]
        · intro m hm1 hm2
          rcases Nat.eq_or_lt_of_le hm1 with rfl | hm
          · obtain ⟨k1, k2, k3, k4⟩ := g9 N (Or.inl (by omega))
            refine ⟨st, bk, by rw [k1, h5]; simp [upd], by rw [k2, h6]; simp [upd, refer], by rw [k3, h7]; simp [upd],
              by rw [k4, h8]; simp [upd]⟩
          · exact g8 m hm (by omega)
        · intro m hm
          obtain ⟨k1, k2, k3, k4⟩ := g9 m (by omega)
          have hmN : m ≠ N := by omega
          rw [k1, k2, k3, k4, h5, h6, h7, h8]
          simp [upd, hmN]

theorem rel_start {V : Env K Ch E Key} {P : Par K} {i : Seed K Ch E Key} {files F : Nat → Option (List (Tok K))}
    {s : St K Ch E Key} (hF : s.files = F) :
    Rel V P s.gs F P.Ninit (start i files) { s with diag := i.diag, chain := i.chain, ops := i.ops, log := [] } := by
  refine ⟨rfl, rfl, rfl, ?_, fun m _ => by rw [← hF]⟩
  show OpsAgree _ i.ops i.ops
  unfold OpsAgree
  induction i.ops with
  | nil => exact .nil
  | cons p l ih => exact .cons ⟨rfl, fun _ => rfl⟩ ih

theorem first_ok {V : Env K Ch E Key} {P : Par K} {fuel : Nat} {i : Seed K Ch E Key}
    {files : Nat → Option (List (Tok K))} {s : St K Ch E Key} (h : first V P fuel i files = .ok s) :
    ∃ a, loop V P fuel .nrg P.Ninit (P.Nmax - P.Ninit) (start i files) = .ok a ∧
      s = { a with gs := a.total, store := fun n => (a.store n).map (refer a.total) } := by
  unfold first at h
  cases ha : loop V P fuel .nrg P.Ninit (P.Nmax - P.Ninit) (start i files) with
  | error x => rw [ha] at h; cases h
  | ok a => rw [ha] at h; cases h; exact ⟨a, rfl, rfl⟩

/-- **C100.** If both sweeps finish, the second one goes through the same steps as
the first, and in each of them works with the same structure, spectra,
eigenvectors and kept states, and the same operators.  The spectra and dimensions
collected in the first sweep for the density matrices are not changed, nor are
the energies.  This holds for every eigensolver, every number of steps, and
whatever the directory contained before. -/
theorem sweeps_agree (V : Env K Ch E Key) (P : Par K) (fuel : Nat) (i : Seed K Ch E Key)
    (files : Nat → Option (List (Tok K))) (s t : St K Ch E Key)
    (hV : SolveOK V) (hf : P.floquet = false) (hdm : P.dm = true) (hr : P.lastStored = none)
    (ht : recalcKept P .nrg = recalcKept P .dm ∨ TrimCommutes V)
    (h1 : first V P fuel i files = .ok s) (h2 : second V P fuel i s = .ok t) :
    s.log.map Rec.N = List.range' P.Ninit (P.Nmax - P.Ninit) ∧
    List.Forall₂ (SameStep V P s.gs) s.log t.log ∧
    t.store = s.store ∧ t.back = s.back ∧ t.total = s.total ∧ t.gs = s.gs ∧ t.chain = s.chain := by
  obtain ⟨a, ha, rfl⟩ := first_ok h1
  unfold second at h2
  have hrel := rel_start (V := V) (P := P) (i := i) (files := files)
    (s := { a with gs := a.total, store := fun n => (a.store n).map (refer a.total) }) (F := a.files) rfl
  obtain ⟨g1, g2, g3, ⟨l1, l2, g4, g5, g6, g7⟩, g8, g9⟩ :=
    loop_rel hV hf hdm hr ht _ P.Ninit le_rfl _ a _ t hrel ha h2
  refine ⟨?_, ?_, ?_, ?_, g3, g2, g1⟩
  · dsimp only; rw [g4]; simpa [start] using g6
  · dsimp only
    rw [g4, g5]
    simpa [start] using g7
  · funext m
    dsimp only
    by_cases hm : P.Ninit ≤ m ∧ m < P.Ninit + (P.Nmax - P.Ninit)
    · obtain ⟨st, bk, k1, k2, _, _⟩ := g8 m hm.1 hm.2
      rw [k1, k2]
      rfl
    · exact (g9 m (by omega)).2.1
  · funext m
    dsimp only
    by_cases hm : P.Ninit ≤ m ∧ m < P.Ninit + (P.Nmax - P.Ninit)
    · obtain ⟨st, bk, _, _, k1, k2⟩ := g8 m hm.1 hm.2
      rw [k1, k2]
    · exact (g9 m (by omega)).2.2.2

theorem loop_exists {V : Env K Ch E Key} {P : Par K} {fuel : Nat} {gs : K}
    (hV : SolveOK V) (hf : P.floquet = false) (hdm : P.dm = true) (hr : P.lastStored = none)
    (ht : recalcKept P .nrg = recalcKept P .dm ∨ TrimCommutes V)
    (hrec : ∀ N str w k m, V.selected .dm N k = true → ∃ x, V.recalc N str w k m = .ok x)
    (n N : Nat) (hN : P.Ninit ≤ N) (a a' b : St K Ch E Key) (hrel : Rel V P gs a'.files N a b)
    (ha : loop V P fuel .nrg N n a = .ok a') : ∃ b', loop V P fuel .dm N n b = .ok b' := by
  induction n generalizing N a b with
  | zero => exact ⟨b, rfl⟩
  | succ n ih =>
    unfold loop at ha
    cases hsa : step V P fuel .nrg N a with
    | error x => rw [hsa] at ha; cases ha
    | ok a1 =>
      rw [hsa] at ha
      dsimp only at ha
      have hF : a'.files N = a1.files N := loop_files ha N (by omega)
      obtain ⟨b1, hb1⟩ := step_exists hV hf hdm hr hrec hrel hsa hF
      obtain ⟨h1, _⟩ := step_rel hV hf hdm hr hN ht hrel hsa hF hb1
      obtain ⟨b', hb'⟩ := ih (N + 1) (by omega) a1 b1 h1 ha
      refine ⟨b', ?_⟩
      unfold loop
      rw [hb1]
      exact hb'

/-- **C100.** Once the first sweep is done, the second one can stop early only in
the recalculation of an operator: spectra are always found, readable and
sufficient. -/
theorem second_completes (V : Env K Ch E Key) (P : Par K) (fuel : Nat) (i : Seed K Ch E Key)
    (files : Nat → Option (List (Tok K))) (s : St K Ch E Key)
    (hV : SolveOK V) (hf : P.floquet = false) (hdm : P.dm = true) (hr : P.lastStored = none)
    (ht : recalcKept P .nrg = recalcKept P .dm ∨ TrimCommutes V)
    (hrec : ∀ N str w k m, V.selected .dm N k = true → ∃ x, V.recalc N str w k m = .ok x)
    (h1 : first V P fuel i files = .ok s) : ∃ t, second V P fuel i s = .ok t := by
  obtain ⟨a, ha, rfl⟩ := first_ok h1
  unfold second
  exact loop_exists hV hf hdm hr ht hrec _ P.Ninit le_rfl _ a _ (rel_start (V := V) (P := P) (i := i) (files := files)
    (s := { a with gs := a.total, store := fun n => (a.store n).map (refer a.total) }) (F := a.files) rfl) ha

end Verif.Sweep
