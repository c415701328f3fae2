import Verif.Arun.Parts
import Verif.Adapt.ToolProps
import Verif.NrgChain.Input
/-!
# C134: the program `adapt` from command line and files to the files it writes
-/

namespace Verif.Arun
open Verif.Tools Verif.Text Verif.Param Verif.Adapt
open Verif.NrgChain (World FS Op after IsReal IsFlag)

variable {W : World} {num : Str → Option ℝ} {fs : FS} {n : ℕ} {args : List Str} {o : Options ℝ} {ops : List Op} {text : Str} {q : Settings} {p : Map}

/-- The integer given for a keyword, or the default. -/
def IsInteger (W : World) (p : Map) (k : String) (d m : Int) : Prop := (p.get k.toList = none ∧ m = d) ∨ ∃ v, p.get k.toList = some v ∧ m = W.atoi v

theorem int_spec (k : String) (d : Int) : IsInteger W p k d (int W p k d) := by
  unfold int IsInteger
  cases p.get k.toList with
  | none => exact Or.inl ⟨rfl, rfl⟩
  | some v => exact Or.inr ⟨v, rfl, rfl⟩

/-- **C134.** The parameters: keywords, defaults, and ranges. -/
theorem adapt_settings (h : settings W p = .ok q) :
    (IsReal W p "Lambda" 2 q.Lambda ∧ 1 < q.Lambda) ∧ (IsReal W p "xmax" 30 q.par.xmax ∧ 1 < q.par.xmax) ∧ (IsReal W p "xfine" 5 q.par.xfine ∧ 1 < q.par.xfine) ∧
    (IsReal W p "outputstep" (1 / 64) q.par.outputStep ∧ q.par.outputStep ≤ 1) ∧ (IsReal W p "dx_fine" (1 / 10 ^ 5) q.par.dxFine ∧ 0 < q.par.dxFine) ∧
    IsReal W p "dx_fast" (1 / 10 ^ 4) q.par.dxFast ∧ IsReal W p "allowed_error" (1 / 10 ^ 10) q.par.allowed ∧ IsInteger W p "max_subdiv" 10 q.par.maxSubdiv ∧
    1 / 2 ^ 52 < q.par.dxFine * (1 / 2) ^ q.par.maxSubdiv ∧ (IsReal W p "max_abs" 100 q.par.maxAbs ∧ 0 < q.par.maxAbs) ∧ IsReal W p "bandrescale" 1 q.bandrescale ∧
    IsReal W p "secant_eps" (1 / 10 ^ 4) q.eps ∧ (∃ f, IsReal W p "secant_factor" (1 / 10 ^ 7) f ∧ q.factor0 = 1 + f) ∧ IsInteger W p "secant_max_iter" 10 q.maxIter ∧
    IsFlag p "adapt" false q.adapt ∧ IsFlag p "loadg" false q.loadg ∧
    (∃ g b, IsFlag p "hardgap" false g ∧ IsReal W p "boundary" 0 b ∧ q.boundary = if g then some b else none) ∧
    (p.get "dos".toList = none → q.dos = "Delta.dat".toList) ∧ (∀ v, p.get "dos".toList = some v → q.dos = v) ∧ q.par.lam = lam q.Lambda := by
  unfold settings at h
  cases hr : readSettings W p with
  | none => rw [hr] at h; cases h
  | some s =>
    rw [hr] at h
    dsimp only at h
    split at h
    · rename_i hok
      cases h
      unfold readSettings at hr
      simp only [Option.bind_eq_bind, Option.bind_eq_some_iff, Option.pure_def, Option.some.injEq] at hr
      obtain ⟨L, e1, b, e2, br, e3, xm, e4, xf, e5, stp, e6, fine, e7, fast, e8, al, e9, ma, e10, ep, e11, fc, e12, rfl⟩ := hr
      unfold paramsOK at hok
      simp only [Bool.and_eq_true, decide_eq_true_eq] at hok
      obtain ⟨⟨⟨⟨⟨h1, h2⟩, h3⟩, h4⟩, h5⟩, h6⟩ := hok
      have hpos : 0 < fine := by
        have hp : (0 : ℝ) < (1 / 2) ^ (int W p "max_subdiv" 10) := by positivity
        have h0 : (0 : ℝ) < fine * (1 / 2) ^ (int W p "max_subdiv" 10) := lt_trans (by norm_num) h5
        exact pos_of_mul_pos_left h0 hp.le
      refine ⟨⟨NrgChain.real_spec.mp e1, h1⟩, ⟨NrgChain.real_spec.mp e4, h2⟩, ⟨NrgChain.real_spec.mp e5, h3⟩, ⟨NrgChain.real_spec.mp e6, h4⟩,
        ⟨NrgChain.real_spec.mp e7, hpos⟩, NrgChain.real_spec.mp e8, NrgChain.real_spec.mp e9, int_spec _ _, h5, ⟨NrgChain.real_spec.mp e10, h6⟩,
        NrgChain.real_spec.mp e3, NrgChain.real_spec.mp e11, ⟨fc, NrgChain.real_spec.mp e12, rfl⟩, int_spec _ _, NrgChain.flag_spec, NrgChain.flag_spec,
        ⟨_, b, NrgChain.flag_spec, NrgChain.real_spec.mp e2, rfl⟩, fun hd => ?_, fun v hd => ?_, rfl⟩
      · show NrgChain.str p "dos" _ = _
        unfold NrgChain.str
        rw [hd]
      · show NrgChain.str p "dos" _ = _
        unfold NrgChain.str
        rw [hd]
    · cases h

theorem program_ok (hc : cmdLine num args = .ok o) (h : program W num fs n args = (ops, .success)) :
    ∃ text, fs o.paramFn = some text ∧ run W fs n (toolParams text "param".toList) o.sign o.flat = (ops, .ok ()) := by
  unfold program at h
  rw [hc] at h
  dsimp only at h
  cases hf : fs o.paramFn with
  | none => rw [hf] at h; cases h
  | some text =>
    rw [hf] at h
    dsimp only at h
    obtain ⟨h1, h2⟩ := Prod.mk.inj h
    refine ⟨text, rfl, Prod.ext h1 ?_⟩
    cases hr : (run W fs n (toolParams text "param".toList) o.sign o.flat).2 with
    | ok u => rfl
    | error e => rw [hr] at h2; cases e <;> cases h2

theorem program_files (W : World) (num : Str → Option ℝ) (fs : FS) (n : ℕ) (args : List Str) :
    ∀ op ∈ (program W num fs n args).1, ∃ o, cmdLine num args = .ok o ∧ (op.file = gFile o.sign ∨ op.file = fFile o.sign) := by
  unfold program
  cases hc : cmdLine num args with
  | help => intro op h; cases h
  | error => intro op h; cases h
  | ok o =>
    dsimp only
    cases fs o.paramFn with
    | none => intro op h; cases h
    | some text => exact fun op h => ⟨o, rfl, run_files _ _ op h⟩

/-- **C134.** The program. When it ends with success, the sign, the parameter file and the constant hybridisation are those of the command line, the file of
the energies holds a table of Runge-Kutta steps for the discretisation equation with the hybridisation function of this sign and the mesh that was asked for, it
extends to `xmax` unless the solution exceeds `max_abs`, and the other files are as before, except that of the mesh if it was computed. -/
theorem adapt_run (hc : cmdLine num args = .ok o) (h : program W num fs n args = (ops, .success))
    (hstep : ∀ text q, fs o.paramFn = some text → settings W (toolParams text "param".toList) = .ok q → 0 < q.par.outputStep ∧ 0 < q.par.dxFast) :
    ∃ text q ρ ε t, fs o.paramFn = some text ∧ settings W (toolParams text "param".toList) = .ok q ∧ Hyb W fs q o.sign o.flat ρ ∧
      MeshOf W fs (after fs ops) q o.sign ρ ε ∧
      Solution q (energyEq q.Lambda ρ ε) 1 (1 / q.Lambda) t ∧ (∃ e, t.getLast? = some e ∧ (q.par.xmax ≤ e.1 ∨ q.par.maxAbs < |e.2|)) ∧
      after fs ops (fFile o.sign) = some (fileText W t) ∧ ∀ fn, fn ≠ fFile o.sign → fn ≠ gFile o.sign → after fs ops fn = fs fn := by
  obtain ⟨text, hf, hr⟩ := program_ok hc h
  have hall : ∀ fn, fn ≠ fFile o.sign → fn ≠ gFile o.sign → after fs ops fn = fs fn := by
    intro fn h1 h2
    refine NrgChain.after_other fs ops fn fun op hop he => ?_
    have := run_files (W := W) (fs := fs) (n := n) (sign := o.sign) (toolParams text "param".toList) o.flat op (by rw [hr]; exact hop)
    rcases this with e | e
    · exact h2 (by rw [← he, e])
    · exact h1 (by rw [← he, e])
  unfold run at hr
  obtain ⟨o1, q, o2, a1, a2, a3⟩ := bind_ok hr
  obtain ⟨rfl, hq⟩ := lift_ok a1
  obtain ⟨o3, r, o4, b1, b2, b3⟩ := bind_ok a2
  obtain ⟨rfl, hrho⟩ := lift_ok b1
  obtain ⟨hg, ⟨total, hti⟩, hhyb⟩ := loadRho_ok hrho
  obtain ⟨ρ, hρ⟩ := interp_exists hg
  obtain ⟨v, s1, e1, -, i1⟩ := linEval_spec hg (inv_fresh r.1) 1
  rw [e1] at b2
  dsimp only at b2
  obtain ⟨o5, m, o6, c1, c2, c3⟩ := bind_ok b2
  obtain ⟨g, st⟩ := m
  have hs := hstep text q hf hq
  have hfine := (adapt_settings hq).2.2.2.2.1.2
  have hsteps : Steps q := ⟨hs.1, hfine, hs.2⟩
  obtain ⟨d1, d2, d3⟩ := mesh_ok hsteps hg hρ i1 c1
  have hops : ops = o5 ++ o6 := by rw [a3, b3, c3]; simp
  have hgfn : ∃ gf : ℝ → ℝ, MeshIs ⟨g, q.boundary⟩ gf (q.boundary.getD 0) ∧ (∀ t, g = some t → ∀ x, IsInterp t x (gf x)) ∧ (g = none → ∀ x, gf x = 1) := by
    have hb : ∀ b : Option ℝ, (match b with | some c => b.getD 0 = c | none => b.getD 0 = 0) := fun b => by cases b <;> rfl
    cases hgt : g with
    | none => exact ⟨fun _ => 1, ⟨fun x => rfl, hb q.boundary⟩, (fun t ht => by cases ht), fun _ x => rfl⟩
    | some t =>
      cases ha : q.adapt with
      | false => rw [(d2 ha).1] at hgt; cases hgt
      | true =>
        obtain ⟨t', e, hgd, -⟩ := d3 ha
        rw [e] at hgt
        cases hgt
        obtain ⟨gf, hgf⟩ := interp_exists hgd
        exact ⟨gf, ⟨⟨hgd, hgf⟩, hb q.boundary⟩, (fun t ht => by cases ht; exact hgf), fun h => by cases h⟩
  obtain ⟨gf, hm, hgf, hg1⟩ := hgfn
  obtain ⟨t, k1, k2, k3⟩ := energies_ok hsteps hg hti hρ d1 hm c2
  have hF : ∀ op ∈ o6, op.file ≠ gFile o.sign := fun op hop he => by
    rw [k1] at hop
    exact names_ne o.sign o.sign (by rw [← he, writes_file W _ _ op hop])
  have hafter : after fs ops (gFile o.sign) = after fs o5 (gFile o.sign) := by
    rw [hops, NrgChain.after_append, NrgChain.after_other _ _ _ hF]
  refine ⟨text, q, ρ, meshFn q.Lambda gf (q.boundary.getD 0), t, hf, hq, hhyb ρ hρ, ⟨fun ha => ?_, fun ha => ?_⟩, k2, k3, ?_, hall⟩
  · obtain ⟨e, e'⟩ := d2 ha
    refine ⟨fun x => ?_, by rw [hafter, e']; rfl⟩
    unfold meshFn
    rw [hg1 e, one_mul]
  · obtain ⟨t', e, hgd, f1, f2⟩ := d3 ha
    refine ⟨t', gf, hgd, hgf t' e, fun x => rfl, fun hl => ?_, fun hl => ?_⟩
    · obtain ⟨g1, g2⟩ := f1 hl
      exact ⟨g1, by rw [hafter, g2]; rfl⟩
    · obtain ⟨g1, pre, g2⟩ := f2 hl
      exact ⟨g1, by rw [hafter, g2, last_writes]⟩
  · rw [hops, k1, last_writes]

/-! ## The end of the calculation -/

theorem loops_end (P : Par ℝ) (hs : 0 < P.outputStep) (hfine : 0 < P.dxFine) (hfast : 0 < P.dxFast) :
    ∃ n, (∀ (F : Rhs ℝ (Objs ℝ)) Lambda obj l o, calcF P F Lambda obj n ≠ .running l o) ∧
      ∀ (F : Rhs ℝ (LinState ℝ)) obj l o, shootLoop P F obj n ≠ .running l o := by
  obtain ⟨n, hn⟩ := exists_nat_ge ((P.xmax + 1 / 10000000000) / P.outputStep)
  have hn' : P.xmax + 1 / 10000000000 ≤ ((n + 1 : ℕ) : ℝ) * P.outputStep := by
    rw [div_le_iff₀ hs] at hn
    push_cast
    linarith
  refine ⟨n + 1, fun F Lambda obj => ?_, fun F obj => ?_⟩
  · refine loop_ends hs hfast (fun st h => ?_) (n + 1) ⟨hfine, le_rfl, by norm_num⟩ (by dsimp only; linarith) (Nat.succ_pos n)
    rw [Bool.and_eq_true] at h
    exact of_decide_eq_true h.1
  · refine loop_ends hs hfast (fun st h => ?_) (n + 1) ⟨hfine, le_rfl, by norm_num⟩ (by dsimp only; linarith) (Nat.succ_pos n)
    exact of_decide_eq_true h

theorem bind_ends {α β : Type} {a : Act α} {f : α → Act β} (h1 : a.2 ≠ .error .running) (h2 : ∀ x, a.2 = .ok x → (f x).2 ≠ .error .running) :
    (bind a f).2 ≠ .error .running := by
  unfold bind
  cases ha : a.2 with
  | error e => rw [ha] at h1; exact fun h => h1 (by cases h; rfl)
  | ok x => exact h2 x ha

theorem shoot_ends {sign : Sign} {rho : Tab ℝ} (hn : ∀ (F : Rhs ℝ (LinState ℝ)) obj l o, shootLoop q.par F obj n ≠ .running l o) (st : LinState ℝ) (A : ℝ) :
    (shoot W n q sign rho st A).2 ≠ .error .running := by
  unfold shoot
  split
  · intro h; cases h
  · cases linEval rho st 1 with
    | none => intro h; cases h
    | some p =>
      dsimp only
      cases hl : shootLoop q.par (rhsG (lam q.Lambda) A rho) p.2 n with
      | running l o => exact absurd hl (hn _ _ _ _)
      | fail l e => intro h; cases h
      | done l fin =>
        dsimp only
        cases linEval rho fin.obj 0 <;> (intro h; cases h)

theorem secant_ends {sign : Sign} {rho : Tab ℝ} (hn : ∀ (F : Rhs ℝ (LinState ℝ)) obj l o, shootLoop q.par F obj n ≠ .running l o) (k : ℕ) (x0 x1 y0 y1 : ℝ) (st : LinState ℝ) :
    (secant W n q sign rho k x0 x1 y0 y1 st).2 ≠ .error .running := by
  induction k generalizing x0 x1 y0 y1 st with
  | zero =>
    unfold secant
    split
    · intro h; cases h
    · refine bind_ends (shoot_ends hn _ _) fun r _ => ?_
      split <;> (intro h; cases h)
  | succ k ih =>
    unfold secant
    split
    · intro h; cases h
    · refine bind_ends (shoot_ends hn _ _) fun r _ => ?_
      split
      · intro h; cases h
      · exact ih _ _ _ _ _

theorem mesh_ends {sign : Sign} {rho : Tab ℝ} (hn : ∀ (F : Rhs ℝ (LinState ℝ)) obj l o, shootLoop q.par F obj n ≠ .running l o) (st : LinState ℝ) :
    (mesh W fs n q sign rho st).2 ≠ .error .running := by
  have hck : ∀ t, (lift (checked t)).2 ≠ .error .running := by
    intro t
    unfold lift checked
    dsimp only
    split <;> (intro h; cases h)
  unfold mesh
  split
  · intro h; cases h
  · split
    · cases NrgChain.loadG W fs (gFile sign) with
      | error e => cases e <;> (intro h; cases h)
      | ok t => exact bind_ends (hck t) fun t _ h => by cases h
    · split
      · intro h; cases h
      · refine bind_ends ?_ fun r _ => bind_ends (hck r.1) fun t _ h => by cases h
        unfold calcG
        refine bind_ends (shoot_ends hn _ _) fun r _ => ?_
        split
        · intro h; cases h
        · refine bind_ends (shoot_ends hn _ _) fun r _ => ?_
          split
          · intro h; cases h
          · exact secant_ends hn _ _ _ _ _ _

/-- **C134.** For positive distances and lengths the program comes to an end, after a number of lines that depends only on the parameters. -/
theorem adapt_ends (W : World) (num : Str → Option ℝ) (fs : FS) (args : List Str)
    (hstep : ∀ o text q, cmdLine num args = .ok o → fs o.paramFn = some text → settings W (toolParams text "param".toList) = .ok q →
      0 < q.par.outputStep ∧ 0 < q.par.dxFast) :
    ∃ n, (program W num fs n args).2 ≠ .running := by
  cases hc : cmdLine num args with
  | help => exact ⟨0, by unfold program; rw [hc]; intro h; cases h⟩
  | error => exact ⟨0, by unfold program; rw [hc]; intro h; cases h⟩
  | ok o =>
    cases hf : fs o.paramFn with
    | none => exact ⟨0, by unfold program; rw [hc]; dsimp only; rw [hf]; intro h; cases h⟩
    | some text =>
      have key : ∀ n, (run W fs n (toolParams text "param".toList) o.sign o.flat).2 ≠ .error .running → (program W num fs n args).2 ≠ .running := by
        intro n hne
        unfold program
        rw [hc]
        dsimp only
        rw [hf]
        dsimp only
        intro h
        cases hr : (run W fs n (toolParams text "param".toList) o.sign o.flat).2 with
        | ok u => rw [hr] at h; cases h
        | error e =>
          rw [hr] at h hne
          cases e with
          | running => exact hne rfl
          | thrown => cases h
          | unmodelled => cases h
      cases hq : settings W (toolParams text "param".toList) with
      | error e =>
        refine ⟨0, key 0 ?_⟩
        unfold run
        refine bind_ends ?_ fun x hx => ?_
        · unfold lift
          rw [hq]
          unfold settings at hq
          cases hr : readSettings W (toolParams text "param".toList) with
          | none => rw [hr] at hq; cases hq; intro h; cases h
          | some s =>
            rw [hr] at hq
            dsimp only at hq
            split at hq
            · cases hq
            · cases hq; intro h; cases h
        · unfold lift at hx
          rw [hq] at hx
          cases hx
      | ok q =>
        obtain ⟨h1, h2⟩ := hstep o text q hc hf hq
        obtain ⟨n, n1, n2⟩ := loops_end q.par h1 (adapt_settings hq).2.2.2.2.1.2 h2
        refine ⟨n, key n ?_⟩
        unfold run
        refine bind_ends (by unfold lift; rw [hq]; intro h; cases h) fun s hs => ?_
        unfold lift at hs
        rw [hq] at hs
        cases hs
        refine bind_ends ?_ fun r _ => ?_
        · unfold lift loadRho
          dsimp only
          cases hst : sideTable W fs q o.sign o.flat with
          | error e =>
            dsimp only
            unfold sideTable at hst
            cases ho : o.flat with
            | some γ =>
              rw [ho] at hst
              dsimp only at hst
              cases hfl : flatRho γ with
              | none => rw [hfl] at hst; cases hst; intro h; cases h
              | some t => rw [hfl] at hst; cases hst
            | none =>
              rw [ho] at hst
              dsimp only at hst
              cases hl : NrgChain.loadSide W fs q.dos (decide (o.sign = .pos)) with
              | error e' => rw [hl] at hst; cases hst; cases e' <;> (intro h; cases h)
              | ok t => rw [hl] at hst; cases hst
          | ok t =>
            dsimp only
            split
            · intro h; cases h
            · cases initRho (1 / 10 ^ 99) q.bandrescale t with
              | none => intro h; cases h
              | some r =>
                dsimp only
                split <;> (intro h; cases h)
        · cases linEval r.1 fresh 1 with
          | none => intro h; cases h
          | some v =>
            refine bind_ends (mesh_ends n2 _) fun m _ => ?_
            unfold energies
            cases linEval r.1 m.2 1 with
            | none => intro h; cases h
            | some v =>
              dsimp only
              cases hl : calcF q.par (rhsF (lam q.Lambda) ⟨m.1, q.boundary⟩ r.1 r.2) q.Lambda ⟨v.2, fresh, fresh, fresh⟩ n with
              | running l o => exact absurd hl (n1 _ _ _ _ _)
              | fail l e => intro h; cases h
              | done l fin => intro h; cases h

end Verif.Arun
