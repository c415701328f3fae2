import Verif.Sweep.Steps
/-!
# One step of the second sweep next to the same step of the first
-/

namespace Verif.Sweep
open Verif.Invar Verif.Store Verif.Subspaces
variable {K : Type} [Field K] [LinearOrder K] {Ch E Key : Type}

/-- The two sweeps before step `N`; `F` are the files left by the first one. -/
structure Rel (V : Env K Ch E Key) (P : Par K) (gs : K) (F : Nat → Option (List (Tok K))) (N : Nat)
    (a b : St K Ch E Key) : Prop where
  sizes : sizes b.diag = sizes a.diag
  chain : b.chain = a.chain
  gs : b.gs = gs
  ops : OpsAgree (Carried V P.Ninit N) a.ops b.ops
  files : ∀ m, N ≤ m → b.files m = F m

theorem recalcOne_ok {V : Env K Ch E Key} {sw : Sweep} {N : Nat} {str : Struct} {w : View K} {p q : Key × E}
    (h : recalcOne V sw N str w p = .ok q) :
    q.1 = p.1 ∧ (V.selected sw N p.1 = true → V.recalc N str w p.1 p.2 = .ok q.2) := by
  unfold recalcOne at h
  split at h
  · rename_i hs
    cases hr : V.recalc N str w p.1 p.2 with
    | error x => rw [hr] at h; cases h
    | ok m => rw [hr] at h; cases h; exact ⟨rfl, fun _ => rfl⟩
  · rename_i hs
    cases h
    exact ⟨rfl, fun h => absurd h hs⟩

theorem recalc_agree {V : Env K Ch E Key} {N : Nat} {str : Struct} {wa wb : View K} (T : E → E) {C C' : Key → Prop}
    (hT : ∀ k m x y, V.recalc N str wa k m = .ok x → V.recalc N str wb k m = .ok y → T y = T x)
    (hC : ∀ k, C' k → C k ∧ V.selected .nrg N k = true ∧ V.selected .dm N k = true)
    {a b ra rb : List (Key × E)} (hab : OpsAgree C a b) (ha : recalcOps V .nrg N str wa a = .ok ra)
    (hb : recalcOps V .dm N str wb b = .ok rb) :
    OpsAgree C' (ra.map fun p => (p.1, T p.2)) (rb.map fun p => (p.1, T p.2)) := by
  unfold recalcOps at ha hb
  induction hab generalizing ra rb with
  | nil => cases ha; cases hb; exact .nil
  | @cons p q l l' hpq _ ih =>
    obtain ⟨p', ra', h1, h2, rfl⟩ := mapM_cons_ok ha
    obtain ⟨q', rb', h3, h4, rfl⟩ := mapM_cons_ok hb
    refine .cons ⟨?_, ?_⟩ (ih h2 h4)
    · dsimp only
      rw [(recalcOne_ok h3).1, (recalcOne_ok h1).1, hpq.1]
    · dsimp only
      intro hc
      have hc : C' p.1 := by rw [← (recalcOne_ok h1).1]; exact hc
      obtain ⟨c1, c2, c3⟩ := hC _ hc
      have e1 := (recalcOne_ok h1).2 c2
      have e2 := (recalcOne_ok h3).2 (by rw [hpq.1]; exact c3)
      rw [hpq.1, hpq.2 c1] at e2
      exact hT _ _ _ _ e1 e2

theorem OpsAgree.mono {C C' : Key → Prop} {a b : List (Key × E)} (h : OpsAgree C a b) (hC : ∀ k, C' k → C k) :
    OpsAgree C' a b := h.imp fun _ _ hp => ⟨hp.1, fun hc => hp.2 (hC _ hc)⟩

theorem OpsAgree.trim {C : Key → Prop} {a b : List (Key × E)} (h : OpsAgree C a b) (T : E → E) :
    OpsAgree C (a.map fun p => (p.1, T p.2)) (b.map fun p => (p.1, T p.2)) := by
  unfold OpsAgree
  rw [List.forall₂_map_left_iff, List.forall₂_map_right_iff]
  exact h.imp fun p q hp => ⟨hp.1, fun hc => by dsimp only at hc ⊢; rw [hp.2 hc]⟩

theorem carried_succ {V : Env K Ch E Key} {Ninit N : Nat} (h : Ninit ≤ N) (k : Key) (hk : Carried V Ninit (N + 1) k) :
    Carried V Ninit N k ∧ V.selected .nrg N k = true ∧ V.selected .dm N k = true :=
  ⟨fun j h1 h2 => hk j h1 (by omega), hk N h (by omega)⟩

/-- The spectra of a step of the first sweep that computes them. -/
theorem first_step_kept {V : Env K Ch E Key} {P : Par K} {fuel N : Nat} {a a1 : St K Ch E Key} {str : Struct} {egs : K}
    {d0 d1 d2 : Diag K} {ops1 ops2 : List (Key × E)} (hV : SolveOK V) (hf : P.floquet = false) (hdm : P.dm = true)
    (hr : resumed P N = false) (h : StepData V P fuel .nrg N a a1 str egs d0 d1 d2 ops1 ops2) :
    Kept V P N str egs d1 ∧ a1.files = upd a.files N (some (saveDiag d1)) := by
  obtain ⟨r, b, ha, hb⟩ := doDiag_ok h.hdiag
  have hfin := h.hfin
  unfold finish1 at hfin
  dsimp only at hfin
  cases hsp : split str true d0 with
  | error x => rw [hsp] at hfin; cases hfin
  | ok d1' =>
    rw [hsp] at hfin
    dsimp only at hfin
    have hfin := Except.ok.inj hfin
    simp only [Prod.mk.injEq] at hfin
    obtain ⟨e1, e2, e3⟩ := hfin
    rw [hdm, hr] at e3
    simp only [Bool.not_false, Bool.and_self, if_true] at e3
    refine ⟨?_, ?_⟩
    · rw [← e1]
      exact kept_of_computed V P N a str r egs d0 d1' b _ _ hV h.hstr hr hf ha (fun h => hb h rfl) hsp
    · rw [← e3, e1]

/-- The same spectra in terms of their blocks. -/
theorem first_step_split {V : Env K Ch E Key} {P : Par K} {fuel N : Nat} {a a1 : St K Ch E Key} {str : Struct} {egs : K}
    {d0 d1 d2 : Diag K} {ops1 ops2 : List (Key × E)} (hV : SolveOK V) (hf : P.floquet = false)
    (hr : resumed P N = false) (h : StepData V P fuel .nrg N a a1 str egs d0 d1 d2 ops1 ops2) :
    ∀ p ∈ d1, SplitOK str p := by
  obtain ⟨r, b, ha, hb⟩ := doDiag_ok h.hdiag
  have hfin := h.hfin
  unfold finish1 at hfin
  dsimp only at hfin
  cases hsp : split str true d0 with
  | error x => rw [hsp] at hfin; cases hfin
  | ok d1' =>
    rw [hsp] at hfin
    dsimp only at hfin
    have hfin := Except.ok.inj hfin
    simp only [Prod.mk.injEq] at hfin
    have hall := split_of_computed V P N a str r egs d0 d1' b hV h.hstr hr hf ha hsp
    intro p hp
    rw [← hfin.1] at hp
    obtain ⟨q, hq, rfl⟩ := List.mem_map.1 hp
    exact hall q hq

/-- The diagonalisation of the second sweep finds the spectra of the first. -/
theorem second_diag {V : Env K Ch E Key} {P : Par K} {f N : Nat} {str : Struct} {egs : K} {d1 : Diag K}
    {b : St K Ch E Key} (hf : P.floquet = false) (hk : Kept V P N str egs d1)
    (hfile : b.files N = some (saveDiag d1)) (ratio : K) :
    doDiag V P .dm N str b (f + 1) ratio = .ok (egs, setGS b.gs d1) := by
  obtain ⟨q, hq, _⟩ := hk.again (setGS b.gs d1) (by unfold setGS keys; rw [List.map_map]; rfl)
    (by unfold setGS; rw [List.map_map]; rfl)
  have : attempt V P .dm N str b ratio = .ok (egs, setGS b.gs d1, q) := by
    rw [attempt_plain V P .dm N str b ratio hf]
    unfold getDiag
    dsimp only
    rw [hk.load b.files hfile]
    exact hq
  unfold doDiag
  rw [this]
  simp

theorem second_fuel {V : Env K Ch E Key} {P : Par K} {sw : Sweep} {fuel N : Nat} {str : Struct} {ratio : K}
    {s : St K Ch E Key} {r : K × Diag K} (h : doDiag V P sw N str s fuel ratio = .ok r) : ∃ f, fuel = f + 1 := by
  cases fuel with
  | zero => cases h
  | succ f => exact ⟨f, rfl⟩

theorem kept_dm_nrg (P : Par K) (h : recalcKept P .dm = true) : recalcKept P .nrg = true := by
  unfold recalcKept at h ⊢
  simp only [Bool.and_eq_true] at h
  simp [h.1]

/-- One step of both sweeps. -/
theorem step_rel {V : Env K Ch E Key} {P : Par K} {fuel N : Nat} {gs : K} {F : Nat → Option (List (Tok K))}
    {a a1 b b1 : St K Ch E Key} (hV : SolveOK V) (hf : P.floquet = false) (hdm : P.dm = true)
    (hr : P.lastStored = none) (hN : P.Ninit ≤ N)
    (ht : recalcKept P .nrg = recalcKept P .dm ∨ TrimCommutes V)
    (hrel : Rel V P gs F N a b) (ha : step V P fuel .nrg N a = .ok a1) (hF : F N = a1.files N)
    (hb : step V P fuel .dm N b = .ok b1) :
    Rel V P gs F (N + 1) a1 b1 ∧
    (∃ r1 r2, a1.log = a.log ++ [r1] ∧ b1.log = b.log ++ [r2] ∧ r1.N = N ∧ SameStep V P gs r1 r2) ∧
    (∃ st, a1.store = upd a.store N (some st) ∧ b1.store = upd b.store N
      (some (st.map fun p => (p.1, { p.2 with values := { p.2.values with absGS := gs } })))) ∧
    (∃ bk, a1.back = upd a.back N (some bk) ∧ b1.back = upd b.back N (some bk)) ∧
    b1.total = b.total := by
  obtain ⟨str, egs, d0, d1, d2, ops1, ops2, hA⟩ := step_ok ha
  obtain ⟨str', egs', e0, e1, e2, qps1, qps2, hB⟩ := step_ok hb
  have hres : resumed P N = false := by unfold resumed; rw [hr]
  obtain ⟨hk, hfiles⟩ := first_step_kept hV hf hdm hres hA
  have hstr : str' = str := by
    have := hB.hstr
    rw [hrel.sizes, hA.hstr] at this
    exact (Option.some.inj this).symm
  subst hstr
  have hfile : b.files N = some (saveDiag d1) := by
    rw [hrel.files N le_rfl, hF, hfiles]; simp [upd]
  obtain ⟨f, rfl⟩ := second_fuel hB.hdiag
  have hd := hB.hdiag
  rw [second_diag hf hk hfile] at hd
  have hd := Except.ok.inj hd
  simp only [Prod.mk.injEq] at hd
  obtain ⟨rfl, rfl⟩ := hd
  have hfin := hB.hfin
  unfold finish1 at hfin
  dsimp only at hfin
  have hfin := Except.ok.inj hfin
  simp only [Prod.mk.injEq] at hfin
  obtain ⟨rfl, htot, hbf⟩ := hfin
  have hcut := hB.hcut
  rw [truncatePerform_gs b.gs hA.hcut] at hcut
  obtain rfl := Except.ok.inj hcut
  have hg := hrel.gs
  have hchain : b1.chain = a1.chain := by
    have h1 := hA.hchain
    have h2 := hB.hchain
    unfold nextChain at h1 h2
    rw [view_gs, hrel.chain, h1] at h2
    exact (Except.ok.inj h2).symm
  -- the operators
  have hops : OpsAgree (Carried V P.Ninit (N + 1)) (ops2.map fun p => (p.1, V.trim (sizes d2) p.2))
        (qps2.map fun p => (p.1, V.trim (sizes d2) p.2)) ∧
      (recalcKept P .nrg = recalcKept P .dm → OpsAgree (Carried V P.Ninit (N + 1)) ops2 qps2) := by
    have b1 := hA.hops1
    have b2 := hA.hops2
    have b3 := hB.hops1
    have b4 := hB.hops2
    unfold opsBefore at b1 b3
    unfold opsAfter at b2 b4
    rw [view_gs] at b3 b4
    cases hkn : recalcKept P .nrg with
    | true =>
      rw [hkn] at b1 b2
      simp only [if_true] at b1 b2
      obtain rfl := Except.ok.inj b1
      cases hkd : recalcKept P .dm with
      | true =>
        rw [hkd] at b3 b4
        simp only [if_true] at b3 b4
        obtain rfl := Except.ok.inj b3
        have := recalc_agree (C' := Carried V P.Ninit (N + 1)) id
          (fun k m x y h1 h2 => by rw [h1] at h2; exact (Except.ok.inj h2).symm) (fun k => carried_succ hN k) hrel.ops b2 b4
        simp only [id, Prod.mk.eta, List.map_id'] at this
        exact ⟨this.trim _, fun _ => this⟩
      | false =>
        rw [hkd] at b3 b4
        simp only [Bool.false_eq_true, if_false] at b3 b4
        obtain rfl := Except.ok.inj b4
        have ht : TrimCommutes V := by
          rcases ht with ht | ht
          · rw [hkn, hkd] at ht; cases ht
          · exact ht
        refine ⟨?_, fun h => by cases h⟩
        exact recalc_agree (V.trim (sizes d2))
          (fun k m x y h1 h2 => ht N _ d1 d2 k m y x (first_step_split hV hf hres hA) hA.hcut h2 h1) (fun k => carried_succ hN k) hrel.ops b2 b3
    | false =>
      have hkd : recalcKept P .dm = false := by
        cases hkd : recalcKept P .dm with
        | false => rfl
        | true => rw [kept_dm_nrg P hkd] at hkn; cases hkn
      rw [hkn] at b1 b2
      rw [hkd] at b3 b4
      simp only [Bool.false_eq_true, if_false] at b1 b2 b3 b4
      obtain rfl := Except.ok.inj b2
      obtain rfl := Except.ok.inj b4
      have := recalc_agree (C' := Carried V P.Ninit (N + 1)) id
        (fun k m x y h1 h2 => by rw [h1] at h2; exact (Except.ok.inj h2).symm) (fun k => carried_succ hN k) hrel.ops b1 b3
      simp only [id, Prod.mk.eta, List.map_id'] at this
      exact ⟨this.trim _, fun _ => this⟩
  have hAo := hA.hout
  have hBo := hB.hout
  rw [sizes_gs] at hBo
  have hBf : ∀ m, N + 1 ≤ m → b1.files m = F m := by
    intro m hm
    rw [← hbf]
    split
    · unfold upd
      rw [if_neg (by omega)]
      exact hrel.files m (by omega)
    · exact hrel.files m (by omega)
  refine ⟨⟨?_, hchain, ?_, ?_, hBf⟩, ⟨_, _, congrArg St.log hAo, congrArg St.log hBo, rfl, ?_⟩, ⟨_, congrArg St.store hAo, ?_⟩,
    ⟨_, congrArg St.back hAo, ?_⟩, htot.symm⟩
  · rw [hAo, hBo]
    dsimp only
    rw [sizes_clear, sizes_clear, sizes_gs]
  · rw [hBo]; exact hg
  · rw [hAo, hBo]; exact hops.1
  · refine ⟨rfl, rfl, ?_, ?_, hchain, hops.1, ?_⟩
    · dsimp only; rw [hg]
    · dsimp only; rw [hg]
    · intro he
      refine ⟨hops.2 he, ?_⟩
      dsimp only
      rw [he, hg]
      split <;> rfl
  · rw [hBo]
    dsimp only
    rw [thermoSubs_gs, hg]
  · rw [hBo]
    dsimp only
    rw [backSubs_gs]

/-- The second sweep can only stop in the recalculation of an operator. -/
theorem step_exists {V : Env K Ch E Key} {P : Par K} {fuel N : Nat} {gs : K} {F : Nat → Option (List (Tok K))}
    {a a1 b : St K Ch E Key} (hV : SolveOK V) (hf : P.floquet = false) (hdm : P.dm = true)
    (hr : P.lastStored = none)
    (hrec : ∀ N str w k m, V.selected .dm N k = true → ∃ x, V.recalc N str w k m = .ok x)
    (hrel : Rel V P gs F N a b) (ha : step V P fuel .nrg N a = .ok a1) (hF : F N = a1.files N) :
    ∃ b1, step V P fuel .dm N b = .ok b1 := by
  obtain ⟨str, egs, d0, d1, d2, ops1, ops2, hA⟩ := step_ok ha
  have hres : resumed P N = false := by unfold resumed; rw [hr]
  obtain ⟨hk, hfiles⟩ := first_step_kept hV hf hdm hres hA
  have hfile : b.files N = some (saveDiag d1) := by
    rw [hrel.files N le_rfl, hF, hfiles]; simp [upd]
  obtain ⟨f, rfl⟩ := second_fuel hA.hdiag
  have hops : ∀ w (ops : List (Key × E)), ∃ ops', recalcOps V .dm N str w ops = .ok ops' := by
    intro w ops
    unfold recalcOps
    induction ops with
    | nil => exact ⟨[], rfl⟩
    | cons p l ih =>
      obtain ⟨l', hl'⟩ := ih
      have : ∃ q, recalcOne V .dm N str w p = .ok q := by
        unfold recalcOne
        split
        · rename_i hs
          obtain ⟨x, hx⟩ := hrec N str w p.1 p.2 hs
          rw [hx]; exact ⟨_, rfl⟩
        · exact ⟨_, rfl⟩
      obtain ⟨q, hq⟩ := this
      exact ⟨q :: l', by rw [mapM_ok_cons, hq, hl']⟩
  have h4 : ∃ o, opsBefore V P .dm N str (setGS b.gs d1) b.ops = .ok o := by
    unfold opsBefore
    split
    · exact ⟨_, rfl⟩
    · exact hops _ _
  obtain ⟨o1, h4⟩ := h4
  have h7 : ∃ o, opsAfter V P .dm N str (setGS b.gs d2) o1 = .ok o := by
    unfold opsAfter
    split
    · exact hops _ _
    · exact ⟨_, rfl⟩
  obtain ⟨o2, h7⟩ := h7
  have h6 : nextChain V P N str (setGS b.gs d2) b.chain = .ok a1.chain := by
    have h1 := hA.hchain
    unfold nextChain at h1 ⊢
    rw [view_gs, hrel.chain]
    exact h1
  exact ok_step (by rw [hrel.sizes]; exact hA.hstr) (second_diag hf hk hfile _)
    (show finish1 P .dm N str b egs (setGS b.gs d1) = .ok (setGS b.gs d1, b.total, _) from rfl) h4
    (truncatePerform_gs b.gs hA.hcut) h6 h7

/-- Steps of the first sweep change only files of the steps they do. -/
theorem loop_files {V : Env K Ch E Key} {P : Par K} {fuel : Nat} {N n : Nat} {a a' : St K Ch E Key}
    (h : loop V P fuel .nrg N n a = .ok a') (m : Nat) (hm : m < N) : a'.files m = a.files m := by
  induction n generalizing N a with
  | zero => unfold loop at h; cases h; rfl
  | succ n ih =>
    unfold loop at h
    cases hs : step V P fuel .nrg N a with
    | error x => rw [hs] at h; cases h
    | ok a1 =>
      rw [hs] at h
      rw [ih h (by omega)]
      obtain ⟨str, egs, d0, d1, d2, ops1, ops2, hA⟩ := step_ok hs
      have hfin := hA.hfin
      unfold finish1 at hfin
      dsimp only at hfin
      cases hsp : split str true d0 with
      | error x => rw [hsp] at hfin; cases hfin
      | ok d =>
        rw [hsp] at hfin
        have hfin := Except.ok.inj hfin
        simp only [Prod.mk.injEq] at hfin
        rw [← hfin.2.2]
        split
        · unfold upd; rw [if_neg (by omega)]
        · rfl

end Verif.Sweep
