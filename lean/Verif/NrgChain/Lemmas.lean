import Verif.NrgChain.Model
import Verif.Tools.ChainProps
import Verif.Tools.LinIntProps
import Verif.Table.Props
/-!
# Lemmas on the tool that computes the Wilson chain
-/

namespace Verif.NrgChain
open Verif.Tools Verif.Text Verif.Param
open scoped Classical

/-! ## Operations on files -/

theorem after_append (fs : FS) (a b : List Op) : after fs (a ++ b) = after (after fs a) b := List.foldl_append ..

theorem after_other (fs : FS) (ops : List Op) (fn : Str) (h : ∀ o ∈ ops, o.file ≠ fn) : after fs ops fn = fs fn := by
  induction ops generalizing fs with
  | nil => rfl
  | cons o ops ih =>
    rw [after, List.foldl_cons]
    have h1 := ih (o.run fs) fun o' ho' => h o' (List.mem_cons_of_mem _ ho')
    rw [after] at h1
    rw [h1]
    have h2 := h o List.mem_cons_self
    cases o with
    | start f => simp only [Op.run, Op.file] at *; rw [if_neg (fun e => h2 e.symm)]
    | put f t => simp only [Op.run, Op.file] at *; rw [if_neg (fun e => h2 e.symm)]

/-- What a file contains after operations of which the first on this file opens it: all texts written to it. -/
def texts (fn : Str) (ops : List Op) : Str :=
  ops.flatMap fun o => match o with
    | .put f t => if f = fn then t else []
    | .start _ => []

theorem after_puts (fs : FS) (fn : Str) (ops : List Op) (c : Str) (hc : fs fn = some c) (h : ∀ o ∈ ops, o ≠ .start fn) :
    after fs ops fn = some (c ++ texts fn ops) := by
  induction ops generalizing fs c with
  | nil => simp [after, texts, hc]
  | cons o ops ih =>
    have hr := fun o' ho' => h o' (List.mem_cons_of_mem _ ho')
    have ho := h o List.mem_cons_self
    rw [after, List.foldl_cons]
    cases o with
    | start f =>
      have hne : fn ≠ f := fun e => ho (by rw [e])
      have h1 := ih (Op.run fs (.start f)) c (by simp only [Op.run]; rw [if_neg hne, hc]) hr
      rw [after] at h1
      rw [h1]
      simp [texts]
    | put f t =>
      by_cases hne : fn = f
      · subst hne
        have h1 := ih (Op.run fs (.put fn t)) (c ++ t) (by simp [Op.run, hc]) hr
        rw [after] at h1
        rw [h1]
        simp [texts, List.append_assoc]
      · have h1 := ih (Op.run fs (.put f t)) c (by simp only [Op.run]; rw [if_neg hne, hc]) hr
        rw [after] at h1
        rw [h1]
        simp [texts, Ne.symm hne]

/-! ## Sequences of actions -/

theorem bind_ok {α β : Type} {a : Act α} {f : α → Act β} {ops : List Op} {y : β} (h : a.bind f = (ops, .ok y)) :
    ∃ o1 x o2, a = (o1, .ok x) ∧ f x = (o2, .ok y) ∧ ops = o1 ++ o2 := by
  obtain ⟨o1, r⟩ := a
  cases r with
  | error e => simp [Act.bind] at h
  | ok x =>
    simp only [Act.bind, Prod.mk.injEq] at h
    exact ⟨o1, x, (f x).1, rfl, by rw [← h.2], h.1.symm⟩

theorem bind_of_ok {α β : Type} (o1 : List Op) (x : α) (f : α → Act β) : Act.bind (o1, .ok x) f = (o1 ++ (f x).1, (f x).2) := rfl

theorem bind_of_error {α β : Type} (o1 : List Op) (e : Stop) (f : α → Act β) : Act.bind (o1, .error e) f = (o1, .error e) := rfl

theorem lift_bind {α β : Type} (r : Except Stop α) (f : α → Act β) :
    (lift r).bind f = match r with | .error e => ([], .error e) | .ok x => f x := by
  cases r with
  | error e => rfl
  | ok x => simp [lift, Act.bind]

/-- All operations of a sequence are operations of its parts. -/
theorem bind_mem {α β : Type} {a : Act α} {f : α → Act β} {P : Op → Prop} (h1 : ∀ o ∈ a.1, P o)
    (h2 : ∀ x, a.2 = .ok x → ∀ o ∈ (f x).1, P o) : ∀ o ∈ (a.bind f).1, P o := by
  obtain ⟨o1, r⟩ := a
  cases r with
  | error e => exact h1
  | ok x =>
    intro o ho
    simp only [Act.bind] at ho
    rcases List.mem_append.mp ho with ho | ho
    · exact h1 o ho
    · exact h2 x rfl o ho

/-! ## The iteration -/

theorem step_values {b : Bath} {l l' : LState} (h : lanczosStep b l = .ok l') :
    l'.xi = l.xi ++ [l'.xiPrev] ∧ l'.zeta = l.zeta ++ [l'.zeta.getLastD 0] := by
  unfold lanczosStep at h
  dsimp only at h
  split at h
  · cases h
  · cases h1 : mpSqrt ((∑ k ∈ Finset.range (b.M + 1), (l.prev.p k * l.prev.p k * (b.ep k * b.ep k) + l.prev.m k * l.prev.m k * (b.em k * b.em k))) -
      l.xi2Prev - (∑ k ∈ Finset.range (b.M + 1), (l.prev.p k * l.prev.p k * b.ep k - l.prev.m k * l.prev.m k * b.em k)) *
      (∑ k ∈ Finset.range (b.M + 1), (l.prev.p k * l.prev.p k * b.ep k - l.prev.m k * l.prev.m k * b.em k))) with
    | error e => rw [h1] at h; simp [bind, Except.bind] at h
    | ok x =>
      rw [h1] at h
      simp only [bind, Except.bind] at h
      split at h
      · cases h
      · split at h
        · cases h
        · simp only [pure, Except.pure, Except.ok.injEq] at h
          rw [← h]
          simp

/-- The printed coefficients for a state of the iteration. -/
noncomputable def xis (s : State) (l : LState) : List ℝ := l.xi.mapIdx fun n x => coefXi s n x
noncomputable def zetas (s : State) (l : LState) : List ℝ := l.zeta.map (coefZeta s)

/-- The output of one pass. -/
def pass (W : World) (p : ℝ × ℝ) : List Op := [.put xiFile (line W 16 (some p.1)), .put zetaFile (line W 16 (some p.2))]

theorem at_lengths (b : Bath) (n : ℕ) (l : LState) (h : lanczosAt b n = .ok l) : l.xi.length = n ∧ l.zeta.length = n := by
  obtain ⟨u, xi, zeta, _, h1, h2, _⟩ := chain_tridiagonal b n l h
  simp [h1, h2]

/-- The loop: it stops after `j` passes, the coefficients of which have been written. -/
theorem loop_spec (W : World) (s : State) (b : Bath) : ∀ (k n : ℕ) (l : LState), lanczosAt b n = .ok l →
    ∃ j l', j ≤ k ∧ lanczosAt b (n + j) = .ok l' ∧
      (chainLoop W s b k n l (xis s l) (zetas s l)).1 = (((xis s l').drop n).zip ((zetas s l').drop n)).flatMap (pass W) ∧
      ((j = k ∧ (chainLoop W s b k n l (xis s l) (zetas s l)).2 = .ok (xis s l', zetas s l')) ∨
       (j < k ∧ ∃ e, lanczosAt b (n + j + 1) = .error e ∧ (chainLoop W s b k n l (xis s l) (zetas s l)).2 = .error (stopOf e))) := by
  intro k
  induction k with
  | zero =>
    intro n l hl
    obtain ⟨h1, h2⟩ := at_lengths b n l hl
    refine ⟨0, l, le_refl _, hl, ?_, Or.inl ⟨rfl, rfl⟩⟩
    have hd : (xis s l).drop n = [] := List.drop_of_length_le (by simp [xis, h1])
    rw [hd]
    rfl
  | succ k ih =>
    intro n l hl
    obtain ⟨h1, h2⟩ := at_lengths b n l hl
    have hat : lanczosAt b (n + 1) = lanczosStep b l := by rw [lanczosAt, hl]; rfl
    cases hs : lanczosStep b l with
    | error e =>
      refine ⟨0, l, Nat.zero_le _, hl, ?_, Or.inr ⟨Nat.succ_pos _, e, by rw [Nat.add_zero, hat, hs], ?_⟩⟩
      · have hd : (xis s l).drop n = [] := List.drop_of_length_le (by simp [xis, h1])
        rw [hd, chainLoop, hs]
        rfl
      · simp [chainLoop, hs]
    | ok l1 =>
      obtain ⟨v1, v2⟩ := step_values hs
      have e1 : xis s l ++ [coefXi s n l1.xiPrev] = xis s l1 := by
        have hx : xis s l1 = (l.xi ++ [l1.xiPrev]).mapIdx fun n x => coefXi s n x := by rw [xis, ← v1]
        rw [hx, List.mapIdx_append]
        simp [xis, h1]
      have e2 : zetas s l ++ [coefZeta s (l1.zeta.getLastD 0)] = zetas s l1 := by
        have hx : zetas s l1 = (l.zeta ++ [l1.zeta.getLastD 0]).map (coefZeta s) := by rw [zetas, ← v2]
        rw [hx]
        simp [zetas]
      obtain ⟨j, l', hj, hl', ho, hr⟩ := ih (n + 1) l1 (by rw [hat, hs])
      obtain ⟨h3, h4⟩ := at_lengths b _ l' hl'
      have hloop : chainLoop W s b (k + 1) n l (xis s l) (zetas s l) =
          (.put xiFile (line W 16 (some (coefXi s n l1.xiPrev))) :: .put zetaFile (line W 16 (some (coefZeta s (l1.zeta.getLastD 0)))) ::
            (chainLoop W s b k (n + 1) l1 (xis s l1) (zetas s l1)).1, (chainLoop W s b k (n + 1) l1 (xis s l1) (zetas s l1)).2) := by
        rw [chainLoop, hs]
        dsimp only
        rw [e1, e2]
      refine ⟨j + 1, l', by omega, by rw [show n + (j + 1) = n + 1 + j by omega]; exact hl', ?_, ?_⟩
      · rw [hloop]
        dsimp only
        rw [ho]
        -- the first of the coefficients is that of this pass
        have pre : ∀ (i : ℕ) (l2 : LState), lanczosAt b (n + 1 + i) = .ok l2 → ∃ tx tz, l2.xi = l1.xi ++ tx ∧ l2.zeta = l1.zeta ++ tz := by
          intro i
          induction i with
          | zero => intro l2 h; rw [Nat.add_zero, hat, hs] at h; cases h; exact ⟨[], [], by simp, by simp⟩
          | succ i ihi =>
            intro l2 h
            rw [show n + 1 + (i + 1) = n + 1 + i + 1 by omega, lanczosAt] at h
            cases hq : lanczosAt b (n + 1 + i) with
            | error e => rw [hq] at h; simp [bind, Except.bind] at h
            | ok l3 =>
              rw [hq] at h
              simp only [bind, Except.bind] at h
              obtain ⟨tx, tz, q1, q2⟩ := ihi l3 hq
              obtain ⟨w1, w2⟩ := step_values h
              exact ⟨tx ++ [l2.xiPrev], tz ++ [l2.zeta.getLastD 0], by rw [w1, q1, List.append_assoc], by rw [w2, q2, List.append_assoc]; simp⟩
        obtain ⟨tx, tz, q1, q2⟩ := pre j l' hl'
        have x1 : xis s l' = xis s l1 ++ (tx.mapIdx fun i x => coefXi s (i + (n + 1)) x) := by
          rw [xis, q1, List.mapIdx_append, xis, v1, List.length_append, h1]; rfl
        have z1 : zetas s l' = zetas s l1 ++ tz.map (coefZeta s) := by rw [zetas, q2, List.map_append, zetas]
        have lx : (xis s l).length = n := by simp [xis, h1]
        have lz : (zetas s l).length = n := by simp [zetas, h2]
        rw [x1, z1, ← e1, ← e2]
        have d1 : ∀ (a : List ℝ) (x : ℝ) (t : List ℝ), a.length = n → (a ++ [x] ++ t).drop n = x :: t := by
          intro a x t ha
          rw [List.append_assoc, List.drop_append, ha]
          simp [ha]
        have d2 : ∀ (a : List ℝ) (x : ℝ) (t : List ℝ), a.length = n → (a ++ [x] ++ t).drop (n + 1) = t := by
          intro a x t ha
          rw [List.drop_append, List.length_append, ha]
          simp [ha]
        rw [d1 _ _ _ lx, d1 _ _ _ lz, d2 _ _ _ lx, d2 _ _ _ lz]
        simp [pass]
      · rw [hloop]
        rcases hr with ⟨r1, r2⟩ | ⟨r1, e, r2, r3⟩
        · exact Or.inl ⟨by omega, r2⟩
        · exact Or.inr ⟨by omega, e, by rw [show n + (j + 1) + 1 = n + 1 + j + 1 by omega]; exact r2, r3⟩

end Verif.NrgChain
