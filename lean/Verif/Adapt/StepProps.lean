import Verif.Adapt.Model
import Mathlib.Algebra.Order.Field.Basic
import Mathlib.Algebra.Order.Archimedean.Basic
import Mathlib.Algebra.Order.Ring.Rat
import Mathlib.Tactic.Linarith
import Mathlib.Tactic.FieldSimp
import Mathlib.Tactic.Ring
import Mathlib.Logic.Relation
/-!
# C90: the integration of the discretisation equation
-/

namespace Verif.Adapt

open Verif.Tools

variable {K : Type} [Field K] [LinearOrder K] [IsStrictOrderedRing K] {S : Type}

/-! ## Specification of the step control -/

/-- An attempt at `(x, y)` with the length `dx` is rejected: an interval of the table was left, or the two formulas differ by more than is
allowed. `s` and `s'` are the states of the tabulated functions before and after. -/
inductive Reject (F : Rhs K S) (allowed x y dx : K) (s : S) : S → Prop
  | crossed {dy s'} : rkStep F (F.clear s) x y dx = some (dy, s') → F.flag s' = true → Reject F allowed x y dx s s'
  | crossedHeun {dy s1 dh s'} : rkStep F (F.clear s) x y dx = some (dy, s1) → F.flag s1 = false →
      heunStep F s1 x y dx = some (dh, s') → F.flag s' = true → Reject F allowed x y dx s s'
  | inaccurate {dy s1 dh s'} : rkStep F (F.clear s) x y dx = some (dy, s1) → F.flag s1 = false →
      heunStep F s1 x y dx = some (dh, s') → F.flag s' = false → allowed < |dh - dy| → Reject F allowed x y dx s s'

/-- `k` attempts were rejected; every time the length is halved. -/
inductive Halved (F : Rhs K S) (allowed x y : K) : Nat → K → S → K → S → Prop
  | zero {dx s} : Halved F allowed x y 0 dx s dx s
  | step {k dx s s1 dx' s'} : Reject F allowed x y dx s s1 → Halved F allowed x y k (dx / 2) s1 dx' s' →
      Halved F allowed x y (k + 1) dx s dx' s'

omit [IsStrictOrderedRing K] in
theorem Halved.length {F : Rhs K S} {allowed x y : K} {k : Nat} {dx dx' : K} {s s' : S} (h : Halved F allowed x y k dx s dx' s') :
    dx' = dx / 2 ^ k := by
  induction h with
  | zero => simp
  | step _ _ ih => rw [ih, pow_succ, div_div, mul_comm]

omit [IsStrictOrderedRing K] in
/-- The loop of `timestep`. -/
theorem tryStep_spec {F : Rhs K S} {allowed : K} {maxCnt : Int} {x y : K} (n : Nat) {dx me : K} {s : S} {r : Step K S}
    (h : tryStep F allowed maxCnt x y n dx me s = .ok r) :
    me ≤ r.maxErr ∧ ∃ k ≤ n, ∃ s0 s1 dh, Halved F allowed x y k dx s r.dx s0 ∧ rkStep F (F.clear s0) x y r.dx = some (r.dy, s1) ∧
      heunStep F s1 x y r.dx = some (dh, r.obj) ∧ |dh - r.dy| ≤ r.maxErr ∧
      (k = n ∨ F.flag s1 = false ∧ F.flag r.obj = false ∧ |dh - r.dy| ≤ allowed) ∧
      (maxCnt < 1 → allowed < |dh - r.dy|) := by
  induction n generalizing dx me s with
  | zero =>
    rw [tryStep, attempt] at h
    cases h1 : rkStep F (F.clear s) x y dx with
    | none => rw [h1] at h; cases h
    | some p =>
      obtain ⟨dy, s1⟩ := p
      rw [h1] at h
      dsimp only at h
      have h' : (match heunStep F s1 x y dx with
        | none => (Except.error Err.interp : Except Err (Step K S))
        | some (dh, s) =>
          if allowed < |dh - dy| then .ok ⟨dx, dy, max me |dh - dy|, s⟩
          else if maxCnt < 1 then .error .noSub else .ok ⟨dx, dy, max me |dh - dy|, s⟩) = .ok r := by
        cases hf : F.flag s1 <;> rw [hf] at h <;> dsimp only at h
        all_goals
          cases h2 : heunStep F s1 x y dx with
          | none => rw [h2] at h; cases h
          | some q =>
            obtain ⟨dh, s2⟩ := q
            rw [h2] at h
            dsimp only at h ⊢
            cases hf2 : F.flag s2 <;> rw [hf2] at h <;> exact h
      cases h2 : heunStep F s1 x y dx with
      | none => rw [h2] at h'; cases h'
      | some q =>
        obtain ⟨dh, s2⟩ := q
        rw [h2] at h'
        dsimp only at h'
        by_cases he : allowed < |dh - dy|
        · rw [if_pos he] at h'
          cases h'
          exact ⟨le_max_left _ _, 0, le_rfl, s, s1, dh, .zero, h1, h2, le_max_right _ _, Or.inl rfl, fun _ => he⟩
        · rw [if_neg he] at h'
          by_cases hc : maxCnt < 1
          · rw [if_pos hc] at h'; cases h'
          · rw [if_neg hc] at h'
            cases h'
            exact ⟨le_max_left _ _, 0, le_rfl, s, s1, dh, .zero, h1, h2, le_max_right _ _, Or.inl rfl, fun hn => absurd hn hc⟩
  | succ n ih =>
    rw [tryStep, attempt] at h
    have again : ∀ {me' : K} {s' : S}, Reject F allowed x y dx s s' → me ≤ me' →
        tryStep F allowed maxCnt x y n (dx / 2) me' s' = .ok r →
        me ≤ r.maxErr ∧ ∃ k ≤ n + 1, ∃ s0 s1 dh, Halved F allowed x y k dx s r.dx s0 ∧
          rkStep F (F.clear s0) x y r.dx = some (r.dy, s1) ∧ heunStep F s1 x y r.dx = some (dh, r.obj) ∧ |dh - r.dy| ≤ r.maxErr ∧
          (k = n + 1 ∨ F.flag s1 = false ∧ F.flag r.obj = false ∧ |dh - r.dy| ≤ allowed) ∧ (maxCnt < 1 → allowed < |dh - r.dy|) := by
      intro me' s' hrej hme hr
      obtain ⟨g1, k, g2, s0, s1, dh, g3, g4⟩ := ih hr
      exact ⟨hme.trans g1, k + 1, by omega, s0, s1, dh, .step hrej g3, g4.1, g4.2.1, g4.2.2.1,
        g4.2.2.2.1.imp (fun e => by omega) id, g4.2.2.2.2⟩
    cases h1 : rkStep F (F.clear s) x y dx with
    | none => rw [h1] at h; cases h
    | some p =>
      obtain ⟨dy, s1⟩ := p
      rw [h1] at h
      dsimp only at h
      cases hf : F.flag s1 with
      | true =>
        rw [hf] at h
        exact again (.crossed h1 hf) le_rfl h
      | false =>
        rw [hf] at h
        dsimp only at h
        cases h2 : heunStep F s1 x y dx with
        | none => rw [h2] at h; cases h
        | some q =>
          obtain ⟨dh, s2⟩ := q
          rw [h2] at h
          dsimp only at h
          cases hf2 : F.flag s2 with
          | true =>
            rw [hf2] at h
            exact again (.crossedHeun h1 hf h2 hf2) (le_max_left _ _) h
          | false =>
            rw [hf2] at h
            dsimp only at h
            by_cases he : allowed < |dh - dy|
            · rw [if_pos he] at h
              exact again (.inaccurate h1 hf h2 hf2 he) (le_max_left _ _) h
            · rw [if_neg he] at h
              by_cases hc : maxCnt < 1
              · rw [if_pos hc] at h; cases h
              · rw [if_neg hc] at h
                cases h
                exact ⟨le_max_left _ _, 0, Nat.zero_le _, s, s1, dh, .zero, h1, h2, le_max_right _ _,
                  Or.inr ⟨hf, hf2, not_lt.mp he⟩, fun hn => absurd hn hc⟩

omit [IsStrictOrderedRing K] in
/-- **C90.** A step is a Runge-Kutta step from the current point. Its length is the requested one, halved after every rejected attempt and only
then, at most `max_subdiv` times. It was accepted because no interval of the table was left and the error estimate is within the
allowed error, or because no further subdivision is allowed. For `f` the energy does not increase faster than
the tolerance. -/
theorem timestep_spec {P : Par K} {F : Rhs K S} {c : Bool} {tryDx : K} {st st' : St K S} (h : timestep P F c tryDx st = .ok st') :
    ∃ k ≤ P.maxSubdiv.toNat, ∃ dx dy s0 s1 dh, Halved F P.allowed st.x st.y k tryDx st.obj dx s0 ∧
      dx = tryDx / 2 ^ k ∧ rkStep F (F.clear s0) st.x st.y dx = some (dy, s1) ∧ st'.x = st.x + dx ∧ st'.y = st.y + dy ∧
      heunStep F s1 st.x st.y dx = some (dh, st'.obj) ∧
      (k = P.maxSubdiv.toNat ∨ F.flag s1 = false ∧ F.flag st'.obj = false ∧ |dh - dy| ≤ P.allowed) ∧
      (c = true → dy / dx - st.y * P.lam.logL ≤ 1 / 100000) ∧ |dh - dy| ≤ st'.maxErr ∧ st.maxErr ≤ st'.maxErr := by
  unfold timestep at h
  cases hr : tryStep F P.allowed (2 * P.maxSubdiv) st.x st.y P.maxSubdiv.toNat tryDx st.maxErr st.obj with
  | error e => rw [hr] at h; cases h
  | ok r =>
    rw [hr] at h
    dsimp only at h
    by_cases hc : c = true ∧ 1 / 100000 < r.dy / r.dx - st.y * P.lam.logL
    · rw [if_pos hc] at h; cases h
    · rw [if_neg hc] at h
      cases h
      obtain ⟨g0, k, g1, s0, s1, dh, g2, g3, g4, g5, g6, _⟩ := tryStep_spec _ hr
      exact ⟨k, g1, r.dx, r.dy, s0, s1, dh, g2, g2.length, g3, rfl, rfl, g4, g6, fun e => not_lt.mp fun hlt => hc ⟨e, hlt⟩, g5, g0⟩

omit [IsStrictOrderedRing K] in
/-- **C90, violated.** Without subdivisions (`max_subdiv = 0`, which is accepted) the decision is the wrong way round: steps are accepted only if
their error is larger than allowed. -/
theorem no_subdivisions_inverted {P : Par K} {F : Rhs K S} {c : Bool} {tryDx : K} {st st' : St K S} (hP : P.maxSubdiv ≤ 0)
    (h : timestep P F c tryDx st = .ok st') :
    ∃ dy s1 dh, rkStep F (F.clear st.obj) st.x st.y tryDx = some (dy, s1) ∧ heunStep F s1 st.x st.y tryDx = some (dh, st'.obj) ∧
      P.allowed < |dh - dy| := by
  unfold timestep at h
  cases hr : tryStep F P.allowed (2 * P.maxSubdiv) st.x st.y P.maxSubdiv.toNat tryDx st.maxErr st.obj with
  | error e => rw [hr] at h; cases h
  | ok r =>
    rw [hr] at h
    dsimp only at h
    by_cases hc : c = true ∧ 1 / 100000 < r.dy / r.dx - st.y * P.lam.logL
    · rw [if_pos hc] at h; cases h
    · rw [if_neg hc] at h
      cases h
      obtain ⟨_, k, g1, s0, s1, dh, g2, g3, g4, _, _, g7⟩ := tryStep_spec _ hr
      have hk : k = 0 := by have : P.maxSubdiv.toNat = 0 := by omega
                            omega
      subst hk
      cases g2
      exact ⟨r.dy, s1, dh, g3, g4, g7 (by omega)⟩

omit [IsStrictOrderedRing K] in
/-- **C90.** With at least one subdivision the message on the number of subdivisions does not occur in a step: there are only failures of
the tabulated functions and of the check on the energy. -/
theorem timestep_errors {P : Par K} {F : Rhs K S} {c : Bool} {tryDx : K} {st : St K S} {e : Err} (hP : 1 ≤ P.maxSubdiv)
    (h : timestep P F c tryDx st = .error e) : e = .interp ∨ c = true ∧ e = .tolerance := by
  have key : ∀ (n : Nat) (dx me : K) (s : S) (e : Err),
      tryStep F P.allowed (2 * P.maxSubdiv) st.x st.y n dx me s = .error e → e = .interp := by
    intro n
    have hcnt : ¬ 2 * P.maxSubdiv < 1 := by omega
    have gen : ∀ (retry : Option (K → K → S → Except Err (Step K S))),
        (∀ r ∈ retry, ∀ dx me s e, r dx me s = .error e → e = .interp) → ∀ dx me s e,
        attempt F P.allowed (2 * P.maxSubdiv) st.x st.y retry dx me s = .error e → e = .interp := by
      intro retry hr dx me s e h
      rw [attempt] at h
      cases h1 : rkStep F (F.clear s) st.x st.y dx with
      | none => rw [h1] at h; cases h; rfl
      | some p =>
        obtain ⟨dy, s1⟩ := p
        rw [h1] at h
        dsimp only at h
        split at h
        · exact hr _ rfl _ _ _ _ h
        · cases h2 : heunStep F s1 st.x st.y dx with
          | none => rw [h2] at h; cases h; rfl
          | some q =>
            obtain ⟨dh, s2⟩ := q
            rw [h2] at h
            dsimp only at h
            split at h
            · exact hr _ rfl _ _ _ _ h
            · split at h
              · split at h
                · exact hr _ rfl _ _ _ _ h
                · cases h
              · first
                | (rw [if_neg hcnt] at h; cases h; done)
                | cases h
    induction n with
    | zero => exact gen none (by simp)
    | succ n ih => exact gen (some _) (by intro r hr; cases hr; exact ih)
  unfold timestep at h
  cases hr : tryStep F P.allowed (2 * P.maxSubdiv) st.x st.y P.maxSubdiv.toNat tryDx st.maxErr st.obj with
  | error e' => rw [hr] at h; cases h; exact Or.inl (key _ _ _ _ _ hr)
  | ok r =>
    rw [hr] at h
    dsimp only at h
    by_cases hc : c = true ∧ 1 / 100000 < r.dy / r.dx - st.y * P.lam.logL
    · rw [if_pos hc] at h; cases h; exact Or.inr ⟨hc.1, rfl⟩
    · rw [if_neg hc] at h; cases h

/-! ## The two formulas -/

omit [LinearOrder K] [IsStrictOrderedRing K] in
/-- **C90.** For `y' = c y` the step is the exponential series to fourth order, the comparison is the series to second order. -/
theorem rk_exponential [CharZero K] (F : Rhs K S) (c : K) (hF : ∀ s x y, F.rhs s x y = some (c * y, s)) (s : S) (x y dx : K) :
    rkStep F s x y dx = some (y * (c * dx + (c * dx) ^ 2 / 2 + (c * dx) ^ 3 / 6 + (c * dx) ^ 4 / 24), s) ∧
    heunStep F s x y dx = some (y * (c * dx + (c * dx) ^ 2 / 2), s) := by
  constructor
  · simp only [rkStep, hF, Option.bind_eq_bind, Option.bind_some, Option.pure_def, Option.some.injEq, Prod.mk.injEq, and_true]
    field_simp
    ring
  · simp only [heunStep, hF, Option.bind_eq_bind, Option.bind_some, Option.pure_def, Option.some.injEq, Prod.mk.injEq, and_true]
    field_simp
    ring

omit [LinearOrder K] [IsStrictOrderedRing K] in
/-- **C90.** For `y' = p(x)` the step is Simpson's rule, the comparison is the trapezoidal rule. -/
theorem rk_simpson [CharZero K] (F : Rhs K S) (p : K → K) (hF : ∀ s x y, F.rhs s x y = some (p x, s)) (s : S) (x y dx : K) :
    rkStep F s x y dx = some (dx * (p x + 4 * p (x + dx / 2) + p (x + dx)) / 6, s) ∧
    heunStep F s x y dx = some (dx * (p x + p (x + dx)) / 2, s) := by
  constructor
  · simp only [rkStep, hF, Option.bind_eq_bind, Option.bind_some, Option.pure_def, Option.some.injEq, Prod.mk.injEq, and_true]
    ring
  · simp only [heunStep, hF, Option.bind_eq_bind, Option.bind_some, Option.pure_def, Option.some.injEq, Prod.mk.injEq, and_true]
    ring

/-! ## The target of an integration -/

theorem timestep_between {P : Par K} {F : Rhs K S} {c : Bool} {d : K} {st st' : St K S} (h : timestep P F c d st = .ok st') :
    ∃ k : Nat, st'.x = st.x + d / 2 ^ k := by
  obtain ⟨k, _, dx, _, _, _, _, _, h1, _, h2, _⟩ := timestep_spec h
  exact ⟨k, by rw [h2, h1]⟩

theorem half_pow_le (k : Nat) {d : K} (hd : 0 ≤ d) : d / 2 ^ k ≤ d :=
  div_le_self hd (one_le_pow₀ (by norm_num))

/-- **C90.** An integration to a target in front of the current point ends at most `10⁻¹⁰` before it, never beyond it. -/
theorem intTo_target {P : Par K} {F : Rhs K S} {c : Bool} {dx xf : K} (hdx : 0 < dx) {cnt : Nat} {st st' : St K S} (hx : st.x < xf)
    (h : intTo P F c dx xf cnt st = .ok st') : st.x < st'.x ∧ st'.x ≤ xf ∧ xf - st'.x ≤ 1 / 10000000000 := by
  induction cnt generalizing st with
  | zero =>
    rw [intTo] at h
    cases ht : timestep P F c (if st.x + dx < xf then dx else xf - st.x) st with
    | error e => rw [ht] at h; cases h
    | ok s => rw [ht] at h; cases h
  | succ cnt ih =>
    rw [intTo] at h
    cases ht : timestep P F c (if st.x + dx < xf then dx else xf - st.x) st with
    | error e => rw [ht] at h; cases h
    | ok s =>
      rw [ht] at h
      dsimp only at h
      obtain ⟨k, hk⟩ := timestep_between ht
      have hd : 0 < (if st.x + dx < xf then dx else xf - st.x) ∧ st.x + (if st.x + dx < xf then dx else xf - st.x) ≤ xf := by
        split
        · rename_i hlt; exact ⟨hdx, hlt.le⟩
        · exact ⟨by linarith, by linarith⟩
      generalize (if st.x + dx < xf then dx else xf - st.x) = d at hk hd
      have hle := half_pow_le k hd.1.le
      have hpos : 0 < d / 2 ^ k := by have := hd.1; positivity
      have h1 : st.x < s.x := by linarith
      have h2 : s.x ≤ xf := by linarith [hd.2]
      by_cases hf : 1 / 10000000000 < |s.x - xf|
      · rw [if_pos hf] at h
        have hlt : s.x < xf := by
          rcases h2.lt_or_eq with h' | h'
          · exact h'
          · rw [h', sub_self, abs_zero] at hf
            exact absurd hf (by norm_num)
        obtain ⟨g1, g2, g3⟩ := ih hlt h
        exact ⟨h1.trans g1, g2, g3⟩
      · rw [if_neg hf] at h
        cases h
        rw [abs_sub_comm, abs_of_nonneg (by linarith)] at hf
        exact ⟨h1, h2, not_lt.mp hf⟩

/-- With a target that is not in front of the current point, the integration does not go forward. -/
theorem intTo_back {P : Par K} {F : Rhs K S} {c : Bool} {dx xf : K} (hdx : 0 < dx) {cnt : Nat} {st st' : St K S} (hx : xf ≤ st.x)
    (h : intTo P F c dx xf cnt st = .ok st') : st'.x ≤ st.x ∧ xf ≤ st'.x := by
  induction cnt generalizing st with
  | zero =>
    rw [intTo] at h
    cases ht : timestep P F c (if st.x + dx < xf then dx else xf - st.x) st with
    | error e => rw [ht] at h; cases h
    | ok s => rw [ht] at h; cases h
  | succ cnt ih =>
    rw [intTo, if_neg (by linarith)] at h
    cases ht : timestep P F c (xf - st.x) st with
    | error e => rw [ht] at h; cases h
    | ok s =>
      rw [ht] at h
      dsimp only at h
      obtain ⟨k, hk⟩ := timestep_between ht
      have hle := half_pow_le k (d := st.x - xf) (by linarith)
      have hpos : 0 ≤ (st.x - xf) / 2 ^ k := div_nonneg (by linarith) (by positivity)
      have e : s.x = st.x - (st.x - xf) / 2 ^ k := by rw [hk, ← neg_sub st.x xf, neg_div]; ring
      by_cases hf : 1 / 10000000000 < |s.x - xf|
      · rw [if_pos hf] at h
        obtain ⟨g1, g2⟩ := ih (by linarith) h
        exact ⟨by linarith, g2⟩
      · rw [if_neg hf] at h
        cases h
        exact ⟨by linarith, by linarith⟩

/-! ## The lines of output -/

/-- Where the loops over the lines stand. -/
structure OutInv (o : Out K S) : Prop where
  dx : 0 < o.dx
  le : o.st.x ≤ o.target
  near : o.target - o.st.x ≤ 1 / 10000000000

theorem round_inv {P : Par K} {F : Rhs K S} {c : Bool} {o o' : Out K S} (hs : 0 < P.outputStep) (hfast : 0 < P.dxFast) (ho : OutInv o)
    (h : round P F c o = .ok o') : OutInv o' ∧ o.st.x < o'.st.x ∧ o'.target = o.target + P.outputStep := by
  unfold round at h
  dsimp only at h
  cases hi : intTo P F c o.dx (o.target + P.outputStep) maxCnt o.st with
  | error e => rw [hi] at h; cases h
  | ok st =>
    rw [hi] at h
    cases h
    obtain ⟨h1, h2, h3⟩ := intTo_target ho.dx (by linarith [ho.le]) hi
    refine ⟨⟨?_, h2, h3⟩, h1, rfl⟩
    dsimp only
    split
    · exact hfast
    · exact ho.dx

/-- The lines written by a loop that has ended. -/
theorem loop_done {P : Par K} {F : Rhs K S} {c : Bool} {again : St K S → Bool} (hs : 0 < P.outputStep) (hfast : 0 < P.dxFast)
    (n : Nat) {lines out : List (K × K)} {o : Out K S} {st : St K S} (ho : OutInv o)
    (h : loop P F c again n lines o = .done out st) :
    ∃ new, out = lines ++ new ∧ (((o.st.x, o.st.y) :: new).map Prod.fst).Pairwise (· < ·) ∧
      (∀ (i : Nat) (p : K × K), new[i]? = some p → p.1 ≤ o.target + (i + 1) * P.outputStep ∧ o.target + (i + 1) * P.outputStep - p.1 ≤ 1 / 10000000000) ∧
      new.getLast? = some (st.x, st.y) ∧ again st = false := by
  induction n generalizing lines o with
  | zero => cases h
  | succ n ih =>
    rw [loop] at h
    cases hr : round P F c o with
    | error e => rw [hr] at h; cases h
    | ok o' =>
      rw [hr] at h
      dsimp only at h
      obtain ⟨h1, h2, h3⟩ := round_inv hs hfast ho hr
      have hfirst : o'.st.x ≤ o.target + ((0 : Nat) + 1) * P.outputStep ∧
          o.target + ((0 : Nat) + 1) * P.outputStep - o'.st.x ≤ 1 / 10000000000 := by
        have e : o.target + ((0 : Nat) + 1) * P.outputStep = o'.target := by rw [h3]; push_cast; ring
        rw [e]
        exact ⟨h1.le, h1.near⟩
      by_cases ha : again o'.st = true
      · rw [if_pos ha] at h
        obtain ⟨new, g1, g2, g3, g4, g5⟩ := ih h1 h
        refine ⟨(o'.st.x, o'.st.y) :: new, by rw [g1]; simp, ?_, ?_, ?_, g5⟩
        · rw [List.map_cons, List.pairwise_cons]
          refine ⟨?_, g2⟩
          intro a ha'
          rw [List.map_cons, List.mem_cons] at ha'
          rcases ha' with rfl | ha'
          · exact h2
          · rw [List.map_cons, List.pairwise_cons] at g2
            exact h2.trans (g2.1 a ha')
        · intro i p hp
          cases i with
          | zero =>
            rw [List.getElem?_cons_zero, Option.some.injEq] at hp
            subst hp
            exact hfirst
          | succ i =>
            rw [List.getElem?_cons_succ] at hp
            have := g3 i p hp
            rw [h3] at this
            have e : o.target + P.outputStep + ((i : K) + 1) * P.outputStep = o.target + (((i + 1 : Nat) : K) + 1) * P.outputStep := by
              push_cast; ring
            rwa [e] at this
        · cases new with
          | nil => simp at g4
          | cons p new => rw [List.getLast?_cons_cons]; exact g4
      · rw [if_neg ha] at h
        cases h
        refine ⟨[(o'.st.x, o'.st.y)], rfl, ?_, ?_, rfl, by simpa using ha⟩
        · simpa using h2
        · intro i p hp
          cases i with
          | zero =>
            rw [List.getElem?_cons_zero, Option.some.injEq] at hp
            subst hp
            exact hfirst
          | succ i => simp at hp

/-- A loop whose condition fails at `xmax` ends after finitely many rounds. -/
theorem loop_ends {P : Par K} {F : Rhs K S} {c : Bool} {again : St K S → Bool} (hs : 0 < P.outputStep) (hfast : 0 < P.dxFast)
    (ha : ∀ st, again st = true → st.x < P.xmax) (n : Nat) {lines : List (K × K)} {o : Out K S} (ho : OutInv o)
    (hn : P.xmax + 1 / 10000000000 ≤ o.target + n * P.outputStep) (h0 : 0 < n) :
    ∀ l o', loop P F c again n lines o ≠ .running l o' := by
  induction n generalizing lines o with
  | zero => omega
  | succ n ih =>
    intro l o' h
    rw [loop] at h
    cases hr : round P F c o with
    | error e => rw [hr] at h; cases h
    | ok o1 =>
      rw [hr] at h
      dsimp only at h
      obtain ⟨h1, h2, h3⟩ := round_inv hs hfast ho hr
      by_cases hag : again o1.st = true
      · rw [if_pos hag] at h
        have hn' : P.xmax + 1 / 10000000000 ≤ o1.target + n * P.outputStep := by
          rw [h3]
          push_cast at hn
          linarith
        rcases Nat.eq_zero_or_pos n with rfl | hpos
        · have := ha _ hag
          have := h1.near
          push_cast at hn'
          linarith
        · exact ih h1 hn' hpos l o' h
      · rw [if_neg hag] at h
        cases h

/-- **C90.** The file with the solution for the energies. When the calculation ends, line `i` is at most `10⁻¹⁰` before `1 + i·outputstep`, the
arguments increase strictly from `1`, where the solution is `1/Λ`, and the last one is not before `xmax`, unless the solution exceeds `max_abs`. -/
theorem calcF_lines {P : Par K} {F : Rhs K S} {Lambda : K} {obj : S} {n : Nat} {lines : List (K × K)} {st : St K S}
    (hs : 0 < P.outputStep) (hfine : 0 < P.dxFine) (hfast : 0 < P.dxFast) (h : calcF P F Lambda obj n = .done lines st) :
    lines[0]? = some (1, 1 / Lambda) ∧ (lines.map Prod.fst).Pairwise (· < ·) ∧
    (∀ (i : Nat) (p : K × K), lines[i]? = some p → p.1 ≤ 1 + i * P.outputStep ∧ 1 + i * P.outputStep - p.1 ≤ 1 / 10000000000) ∧
    lines.getLast? = some (st.x, st.y) ∧ (P.xmax ≤ st.x ∨ P.maxAbs < |st.y|) := by
  unfold calcF at h
  obtain ⟨new, g1, g2, g3, g4, g5⟩ := loop_done hs hfast n ⟨hfine, le_rfl, by norm_num⟩ h
  rw [g1, List.singleton_append]
  refine ⟨rfl, g2, ?_, ?_, ?_⟩
  · intro i p hp
    cases i with
    | zero =>
      rw [List.getElem?_cons_zero, Option.some.injEq] at hp
      subst hp
      norm_num
    | succ i =>
      have := g3 i p (by simpa using hp)
      push_cast
      exact this
  · cases new with
    | nil => simp at g4
    | cons p new => rw [List.getLast?_cons_cons]; exact g4
  · rw [Bool.and_eq_false_iff, decide_eq_false_iff_not, decide_eq_false_iff_not, not_lt, not_le] at g5
    exact g5

/-- **C90.** The same for the mesh function: from `(2, 1)` to `xmax`. -/
theorem shoot_lines {P : Par K} {F : Rhs K S} {obj : S} {n : Nat} {lines : List (K × K)} {st : St K S}
    (hs : 0 < P.outputStep) (hfine : 0 < P.dxFine) (hfast : 0 < P.dxFast) (h : shootLoop P F obj n = .done lines st) :
    lines[0]? = some (2, 1) ∧ (lines.map Prod.fst).Pairwise (· < ·) ∧
    (∀ (i : Nat) (p : K × K), lines[i]? = some p → p.1 ≤ 2 + i * P.outputStep ∧ 2 + i * P.outputStep - p.1 ≤ 1 / 10000000000) ∧
    lines.getLast? = some (st.x, st.y) ∧ P.xmax ≤ st.x := by
  unfold shootLoop at h
  obtain ⟨new, g1, g2, g3, g4, g5⟩ := loop_done hs hfast n ⟨hfine, le_rfl, by norm_num⟩ h
  rw [g1, List.singleton_append]
  refine ⟨rfl, g2, ?_, ?_, ?_⟩
  · intro i p hp
    cases i with
    | zero =>
      rw [List.getElem?_cons_zero, Option.some.injEq] at hp
      subst hp
      norm_num
    | succ i =>
      have := g3 i p (by simpa using hp)
      push_cast
      exact this
  · cases new with
    | nil => simp at g4
    | cons p new => rw [List.getLast?_cons_cons]; exact g4
  · rw [decide_eq_false_iff_not, not_lt] at g5
    exact g5

/-- `q` follows from `p` by one Runge-Kutta step of some length, from some state of the tabulated functions. -/
def RkNext (F : Rhs K S) (p q : K × K) : Prop :=
  ∃ s s' dx dy, rkStep F s p.1 p.2 dx = some (dy, s') ∧ q = (p.1 + dx, p.2 + dy)

theorem timestep_next {P : Par K} {F : Rhs K S} {c : Bool} {d : K} {st st' : St K S} (h : timestep P F c d st = .ok st') :
    RkNext F (st.x, st.y) (st'.x, st'.y) := by
  unfold timestep at h
  cases ht : tryStep F P.allowed (2 * P.maxSubdiv) st.x st.y P.maxSubdiv.toNat d st.maxErr st.obj with
  | error e => rw [ht] at h; cases h
  | ok r =>
    rw [ht] at h
    dsimp only at h
    split at h
    · cases h
    · cases h
      obtain ⟨-, k, -, s0, s1, dh, -, g, -⟩ := tryStep_spec _ ht
      exact ⟨_, _, _, _, g, rfl⟩

theorem intTo_path {P : Par K} {F : Rhs K S} {c : Bool} {dx xf : K} {cnt : Nat} {st st' : St K S}
    (h : intTo P F c dx xf cnt st = .ok st') : Relation.TransGen (RkNext F) (st.x, st.y) (st'.x, st'.y) := by
  induction cnt generalizing st with
  | zero =>
    rw [intTo] at h
    cases ht : timestep P F c (if st.x + dx < xf then dx else xf - st.x) st with
    | error e => rw [ht] at h; cases h
    | ok s1 => rw [ht] at h; cases h
  | succ cnt ih =>
    rw [intTo] at h
    cases ht : timestep P F c (if st.x + dx < xf then dx else xf - st.x) st with
    | error e => rw [ht] at h; cases h
    | ok s1 =>
      rw [ht] at h
      dsimp only at h
      split at h
      · exact Relation.TransGen.head (timestep_next ht) (ih h)
      · cases h
        exact .single (timestep_next ht)

theorem loop_path {P : Par K} {F : Rhs K S} {c : Bool} {again : St K S → Bool} (n : Nat) {lines : List (K × K)} {o : Out K S}
    {out : List (K × K)} {st : St K S} (h : loop P F c again n lines o = .done out st) :
    ∃ new, out = lines ++ new ∧ ((o.st.x, o.st.y) :: new).IsChain (Relation.TransGen (RkNext F)) := by
  induction n generalizing lines o with
  | zero => cases h
  | succ n ih =>
    rw [loop] at h
    cases hr : round P F c o with
    | error e => rw [hr] at h; cases h
    | ok o1 =>
      rw [hr] at h
      dsimp only at h
      have hp : Relation.TransGen (RkNext F) (o.st.x, o.st.y) (o1.st.x, o1.st.y) := by
        unfold round at hr
        dsimp only at hr
        cases hi : intTo P F c o.dx (o.target + P.outputStep) maxCnt o.st with
        | error e => rw [hi] at hr; cases hr
        | ok st1 =>
          rw [hi] at hr
          cases hr
          exact intTo_path hi
      by_cases hag : again o1.st = true
      · rw [if_pos hag] at h
        obtain ⟨new, e, hc⟩ := ih h
        exact ⟨(o1.st.x, o1.st.y) :: new, by rw [e]; simp, .cons_cons hp hc⟩
      · rw [if_neg hag] at h
        cases h
        exact ⟨[(o1.st.x, o1.st.y)], rfl, .cons_cons hp (.singleton _)⟩

/-- **C90.** Every line of the file with the energies follows from the line before by Runge-Kutta steps; the first line is the initial value
`(1, 1/Λ)`. -/
theorem calcF_path {P : Par K} {F : Rhs K S} {Lambda : K} {obj : S} {n : Nat} {lines : List (K × K)} {st : St K S}
    (h : calcF P F Lambda obj n = .done lines st) :
    lines.head? = some (1, 1 / Lambda) ∧ lines.IsChain (Relation.TransGen (RkNext F)) := by
  obtain ⟨new, e, hc⟩ := loop_path n h
  rw [e]
  exact ⟨rfl, hc⟩

/-- **C90.** The same for the mesh function, from `(2, 1)`. -/
theorem shoot_path {P : Par K} {F : Rhs K S} {obj : S} {n : Nat} {lines : List (K × K)} {st : St K S}
    (h : shootLoop P F obj n = .done lines st) :
    lines.head? = some (2, 1) ∧ lines.IsChain (Relation.TransGen (RkNext F)) := by
  obtain ⟨new, e, hc⟩ := loop_path n h
  rw [e]
  exact ⟨rfl, hc⟩

/-- **C90.** For a positive distance of the lines both calculations end, with a result or with an exception. -/
theorem calculations_end [Archimedean K] {P : Par K} {F : Rhs K S} {obj : S} (Lambda : K) (hs : 0 < P.outputStep) (hfine : 0 < P.dxFine)
    (hfast : 0 < P.dxFast) :
    ∃ n, (∀ l o, calcF P F Lambda obj n ≠ .running l o) ∧ ∀ l o, shootLoop P F obj n ≠ .running l o := by
  obtain ⟨n, hn⟩ := exists_nat_ge ((P.xmax + 1 / 10000000000) / P.outputStep)
  have hn' : P.xmax + 1 / 10000000000 ≤ ((n + 1 : Nat) : K) * P.outputStep := by
    rw [div_le_iff₀ hs] at hn
    push_cast
    linarith
  refine ⟨n + 1, ?_, ?_⟩
  · refine loop_ends hs hfast ?_ (n + 1) ⟨hfine, le_rfl, by norm_num⟩ ?_ (by omega)
    · intro st h
      rw [Bool.and_eq_true, decide_eq_true_iff] at h
      exact h.1
    · dsimp only; linarith
  · refine loop_ends hs hfast ?_ (n + 1) ⟨hfine, le_rfl, by norm_num⟩ ?_ (by omega)
    · intro st h
      exact of_decide_eq_true h
    · dsimp only; linarith

/-- A loop with a distance that is not positive stays where it is or goes back. -/
theorem loop_back {P : Par K} {F : Rhs K S} {c : Bool} {again : St K S → Bool} (hs : P.outputStep ≤ 0) (hfast : 0 < P.dxFast) (b : K)
    (n : Nat) {lines : List (K × K)} {o : Out K S} (hdx : 0 < o.dx) (hx : o.target ≤ o.st.x) (hb : o.st.x ≤ b) {out : List (K × K)} {st : St K S}
    (h : loop P F c again n lines o = .done out st) : st.x ≤ b ∧ again st = false := by
  induction n generalizing lines o with
  | zero => cases h
  | succ n ih =>
    rw [loop] at h
    cases hr : round P F c o with
    | error e => rw [hr] at h; cases h
    | ok o1 =>
      rw [hr] at h
      dsimp only at h
      unfold round at hr
      dsimp only at hr
      cases hi : intTo P F c o.dx (o.target + P.outputStep) maxCnt o.st with
      | error e => rw [hi] at hr; cases hr
      | ok st1 =>
        rw [hi] at hr
        cases hr
        obtain ⟨h1, h2⟩ := intTo_back hdx (by linarith) hi
        by_cases hag : again st1 = true
        · rw [if_pos hag] at h
          refine ih ?_ h2 (h1.trans hb) h
          dsimp only
          split
          · exact hfast
          · exact hdx
        · rw [if_neg hag] at h
          cases h
          exact ⟨h1.trans hb, by simpa using hag⟩

/-- **C90, violated.** A distance of the lines that is zero or negative is accepted, but then the calculation of the mesh never ends, and that of
the energies only if the solution exceeds `max_abs`. -/
theorem no_end_without_step {P : Par K} {F : Rhs K S} {obj : S} (Lambda : K) (hs : P.outputStep ≤ 0) (hfine : 0 < P.dxFine)
    (hfast : 0 < P.dxFast) (hmax : 2 < P.xmax) (n : Nat) (lines : List (K × K)) (st : St K S) :
    shootLoop P F obj n ≠ .done lines st ∧ (calcF P F Lambda obj n = .done lines st → P.maxAbs < |st.y|) := by
  constructor
  · intro h
    obtain ⟨h1, h2⟩ := loop_back hs hfast 2 n hfine le_rfl le_rfl h
    rw [decide_eq_false_iff_not, not_lt] at h2
    linarith
  · intro h
    obtain ⟨h1, h2⟩ := loop_back hs hfast 1 n hfine le_rfl le_rfl h
    rw [Bool.and_eq_false_iff, decide_eq_false_iff_not, decide_eq_false_iff_not, not_lt, not_le] at h2
    rcases h2 with h2 | h2
    · linarith
    · exact h2

/-! ## Examples -/

/-- `y' = y` without tables. -/
def exRhs : Rhs ℚ Unit := ⟨fun _ _ y => some (y, ()), fun _ => false, id⟩

def exPar (m : Int) (step : ℚ) : Par ℚ := ⟨⟨fun _ => 1, 2⟩, 1 / 10, m, 2, 5, step, 1, 1, 100⟩

/-- Negative distances and no subdivisions pass the checks of the parameters. -/
example : paramsOK 2 (1 / 1000) (exPar 0 (-1)) = true := by decide +kernel

/-- Non-vacuity: a calculation that ends; the first attempt is rejected, the second one accepted. -/
theorem ex_step : (timestep (exPar 10 1) exRhs true 1 ⟨1, 1, 0, ()⟩).toOption.map (fun st => (st.x, st.y, st.maxErr)) =
    some (3 / 2, 211 / 128, 5 / 24) := by decide +kernel

/-- **C90, violated.** The maximal error that is reported counts attempts that were rejected: here every accepted step is within the
allowed error `1/10`, the reported maximum is `5/24`. -/
theorem max_error_counts_rejected : ∃ st, timestep (exPar 10 1) exRhs true 1 ⟨1, 1, 0, ()⟩ = .ok st ∧ st.x = 3 / 2 ∧
    rkStep exRhs () 1 1 (1 / 2) = some (83 / 128, ()) ∧ heunStep exRhs () 1 1 (1 / 2) = some (5 / 8, ()) ∧
    |(5 / 8 : ℚ) - 83 / 128| ≤ (exPar 10 1).allowed ∧ (exPar 10 1).allowed < st.maxErr := by
  have h := ex_step
  cases ht : timestep (exPar 10 1) exRhs true 1 ⟨1, 1, 0, ()⟩ with
  | error e => rw [ht] at h; cases h
  | ok st =>
    rw [ht] at h
    simp only [Except.toOption, Option.map_some, Option.some.injEq, Prod.mk.injEq] at h
    refine ⟨st, rfl, h.1, by decide +kernel, by decide +kernel, by decide +kernel, ?_⟩
    rw [h.2.2]
    decide +kernel

end Verif.Adapt
