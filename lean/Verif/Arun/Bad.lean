import Verif.Arun.Example
/-!
# C135: runs of `adapt` that fail, that end early and that do not end
-/

namespace Verif.Arun
open Verif.Tools Verif.Text Verif.Param Verif.Adapt
open Verif.NrgChain (World FS Op after)
open scoped Classical

/-! ## A run that succeeds -/

theorem ex_success {num : Str → Option ℝ} {fs : FS} (h1 : num "1".toList = some 1) (hf : fs "param".toList = some exText) (n : ℕ) :
    program (exW (-1) 100) num fs (n + 1) ["--flat=1".toList] = (writes (exW (-1) 100) "FSOL.dat".toList [(1, 1 / 4), (2, exY)], .success) := by
  obtain ⟨r, e, hr, he, s, s1, a1, a2, fin, hc⟩ := ex_calcF
  rw [flat_run h1 hf (ex_settings (by norm_num)).1 rfl (hr _ _ _ _ _) a1]
  have h := (hc (-1) 100 2 n).1 (by linarith) (Or.inl le_rfl) (Or.inl le_rfl)
  have hE : energies (exW (-1) 100) (n + 1) (exQ (-1) 100 2) .pos r.1 r.2 none s = (writes (exW (-1) 100) "FSOL.dat".toList [(1, 1 / 4), (2, exY)], .ok ()) := by
    unfold energies
    rw [a2]
    dsimp only
    change (match calcF (exQ (-1) 100 2).par (rhsF (lam 4) ⟨none, none⟩ r.1 r.2) 4 ⟨s1, fresh, fresh, fresh⟩ (n + 1) with
      | .running l _ => (writes (exW (-1) 100) (fFile .pos) l, (.error .running : Except Stop Unit))
      | .fail l _ => (writes (exW (-1) 100) (fFile .pos) l, .error .thrown)
      | .done l _ => (writes (exW (-1) 100) (fFile .pos) l, .ok ())) = _
    rw [h]
    rfl
  rw [hE]
  rfl

/-- The hypotheses of `adapt_run`, `adapt_read_by_nrgchain` and `adapt_ends` are met by a run for a flat band that writes two lines. -/
example : ∃ (num : Str → Option ℝ) (o : Options ℝ) (ops : List Op) (q : Settings), cmdLine num ["--flat=1".toList] = .ok o ∧ o.flat = some 1 ∧
    program (exW (-1) 100) num (fun _ => some exText) 1 ["--flat=1".toList] = (ops, .success) ∧
    settings (exW (-1) 100) (toolParams exText "param".toList) = .ok q ∧ 0 < q.par.outputStep ∧ 0 < q.par.dxFast ∧ (∀ x, Prints (exW (-1) 100) (fun _ => 1) x) ∧ 1 / 4 < exY ∧
    NrgChain.loadG (exW (-1) 100) (after (fun _ => some exText) ops) "FSOL.dat".toList = .ok [(1, 1), (1, 1)] := by
  have hp : ∀ x, Prints (exW (-1) 100) (fun _ => 1) x := fun x => by
    refine ⟨(ex_vals (-1) 100).2.2.1, fun c hc => ?_, List.cons_ne_nil _ _, ?_⟩
    · change c ∈ ['1'] at hc
      rw [List.mem_singleton] at hc
      subst hc
      decide
    · change some '1' ≠ some '#'
      decide
  refine ⟨fun _ => some 1, ⟨.pos, "param".toList, some 1⟩, _, _, flat_cmd rfl, rfl, ex_success (num := fun _ => some 1) (fs := fun _ => some exText) rfl rfl 0, (ex_settings (by norm_num)).1, by norm_num [exQ], by norm_num [exQ], hp, ?_, ?_⟩
  · have := ex_step.1
    unfold exY
    linarith
  · exact load_text (writes_text _ _ _ _) (fun e _ => ⟨hp _, hp _⟩) (by simp)

/-- The hypotheses of `adapt_either_order` are met by calculations for the two signs with the same parameter file. -/
example (num : Str → Option ℝ) : ∃ oa ob : Options ℝ, cmdLine num ["P".toList] = .ok oa ∧ cmdLine num ["N".toList] = .ok ob ∧ oa.sign ≠ ob.sign ∧
    oa.paramFn ∉ results ∧ ob.paramFn ∉ results ∧ ∀ o ∈ [oa, ob], ∀ text q, (fun _ => some exText : FS) o.paramFn = some text →
      settings (exW (-1) 100) (toolParams text "param".toList) = .ok q → q.dos ∉ results := by
  refine ⟨⟨.pos, "param".toList, none⟩, ⟨.neg, "param".toList, none⟩, rfl, rfl, by decide, by decide, by decide, fun o _ text q ht hq => ?_⟩
  cases ht
  have h := (ex_settings (a := -1) (m := 100) (by norm_num)).1
  unfold exMap at h
  rw [h] at hq
  cases hq
  change "Delta.dat".toList ∉ results
  decide

/-! ## What is not written -/

variable {W : World} {num : Str → Option ℝ} {fs : FS} {n : ℕ} {args : List Str}

/-- **C135, the part that holds.** Success is reported only for a request for help, or if command line, parameter file, parameters and hybridisation function have been
accepted and the calculation has come to its end. -/
theorem adapt_success_partial (h : (program W num fs n args).2 = .success) :
    cmdLine num args = .help ∨ ∃ o text q r, cmdLine num args = .ok o ∧ fs o.paramFn = some text ∧ settings W (toolParams text "param".toList) = .ok q ∧
      loadRho W fs q o.sign o.flat = .ok r ∧ (run W fs n (toolParams text "param".toList) o.sign o.flat).2 = .ok () := by
  unfold program at h
  cases hc : cmdLine num args with
  | help => exact Or.inl rfl
  | error => rw [hc] at h; simp at h
  | ok o =>
    right
    rw [hc] at h
    dsimp only at h
    cases hf : fs o.paramFn with
    | none => rw [hf] at h; simp at h
    | some text =>
      rw [hf] at h
      dsimp only at h
      have hrun : (run W fs n (toolParams text "param".toList) o.sign o.flat).2 = .ok () := by
        cases hr : (run W fs n (toolParams text "param".toList) o.sign o.flat).2 with
        | ok u => rfl
        | error e => rw [hr] at h; cases e <;> simp [exitOf] at h
      have hrun' := hrun
      unfold run at hrun'
      cases hq : settings W (toolParams text "param".toList) with
      | error e => rw [hq] at hrun'; simp [lift, bind] at hrun'
      | ok q =>
        rw [hq, bind_lift] at hrun'
        cases hl : loadRho W fs q o.sign o.flat with
        | error e => rw [hl] at hrun'; simp [lift, bind] at hrun'
        | ok r => exact ⟨o, text, q, r, rfl, hf, hq, hl, hrun⟩

/-- **C135, the part that holds.** A run that is refused because of its command line, a missing parameter file, parameters that are out of range or a
hybridisation function that cannot be read changes no file; and no run ever changes a file other than those of the mesh and of the energies of its own sign. -/
theorem adapt_refused_partial :
    ((program W num fs n args).1 ≠ [] → ∃ o text q r, cmdLine num args = .ok o ∧ fs o.paramFn = some text ∧ settings W (toolParams text "param".toList) = .ok q ∧
      loadRho W fs q o.sign o.flat = .ok r) ∧
    ∀ o, cmdLine num args = .ok o → ∀ fn, fn ≠ gFile o.sign → fn ≠ fFile o.sign → after fs (program W num fs n args).1 fn = fs fn := by
  constructor
  · intro h
    unfold program at h
    cases hc : cmdLine num args with
    | help => rw [hc] at h; exact absurd rfl h
    | error => rw [hc] at h; exact absurd rfl h
    | ok o =>
      rw [hc] at h
      dsimp only at h
      cases hf : fs o.paramFn with
      | none => rw [hf] at h; exact absurd rfl h
      | some text =>
        rw [hf] at h
        dsimp only at h
        unfold run at h
        cases hq : settings W (toolParams text "param".toList) with
        | error e => rw [hq] at h; exact absurd rfl h
        | ok q =>
          rw [hq, bind_lift] at h
          cases hr : loadRho W fs q o.sign o.flat with
          | error e => rw [hr] at h; exact absurd rfl h
          | ok r => exact ⟨o, text, q, r, rfl, hf, hq, hr⟩
  · intro o hc fn h1 h2
    refine NrgChain.after_other fs _ fn fun op hop he => ?_
    obtain ⟨o', hc', hfile⟩ := program_files W num fs n args op hop
    rw [hc] at hc'
    cases hc'
    rcases hfile with e | e
    · exact h1 (by rw [← he, e])
    · exact h2 (by rw [← he, e])

/-- Such a run: no parameter file. -/
example : (program W num (fun _ => none) n []).1 = [] ∧ (program W num (fun _ => none) n []).2 = .failure := ⟨rfl, rfl⟩

/-! ## Violations -/

/-- **C135, violated.** A run that fails destroys the result of an earlier run: the file of the energies is opened before the integration. Here it has a single
line afterwards, whatever it was before. -/
theorem failure_destroys_energies : ∃ (W : World) (num : Str → Option ℝ) (args : List Str) (text : Str), ∀ (fs : FS) (n : ℕ), fs "param".toList = some text →
    (program W num fs (n + 1) args).2 = .failure ∧
    after fs (program W num fs (n + 1) args).1 "FSOL.dat".toList = some (fileText W [(1, 1 / 4)]) := by
  obtain ⟨r, e, hr, he, s, s1, a1, a2, fin, hc⟩ := ex_calcF
  refine ⟨exW e 100, fun _ => some 1, ["--flat=1".toList], exText, fun fs n hf => ?_⟩
  rw [flat_run rfl hf (ex_settings (by norm_num)).1 rfl (hr _ _ _ _ _) a1]
  have h := (hc e 100 2 n).2 le_rfl
  have hE : energies (exW e 100) (n + 1) (exQ e 100 2) .pos r.1 r.2 none s = (writes (exW e 100) "FSOL.dat".toList [(1, 1 / 4)], .error .thrown) := by
    unfold energies
    rw [a2]
    dsimp only
    change (match calcF (exQ e 100 2).par (rhsF (lam 4) ⟨none, none⟩ r.1 r.2) 4 ⟨s1, fresh, fresh, fresh⟩ (n + 1) with
      | .running l _ => (writes (exW e 100) (fFile .pos) l, (.error .running : Except Stop Unit))
      | .fail l _ => (writes (exW e 100) (fFile .pos) l, .error .thrown)
      | .done l _ => (writes (exW e 100) (fFile .pos) l, .ok ())) = _
    rw [h]
    rfl
  rw [hE]
  exact ⟨rfl, writes_text _ _ _ _⟩

/-- **C135, violated.** A run reports success although its table ends long before `xmax`: here at 2 instead of 30. The program that reads the table has no means to
notice it. -/
theorem success_ends_early : ∃ (W : World) (num : Str → Option ℝ) (args : List Str) (text : Str) (q : Settings), settings W (toolParams text "param".toList) = .ok q ∧ q.par.xmax = 30 ∧
    ∀ (fs : FS) (n : ℕ), fs "param".toList = some text →
    ∃ y, program W num fs (n + 1) args = (writes W "FSOL.dat".toList [(1, 1 / 4), (2, y)], .success) := by
  obtain ⟨r, e, hr, he, s, s1, a1, a2, fin, hc⟩ := ex_calcF
  have hy : 1 / 8 < exY := by
    have := ex_step.1
    unfold exY
    linarith
  refine ⟨exW (-1) (1 / 8), fun _ => some 1, ["--flat=1".toList], exLong, exQ (-1) (1 / 8) 30, (ex_settings (by norm_num)).2, rfl, fun fs n hf => ⟨exY, ?_⟩⟩
  rw [flat_run rfl hf (ex_settings (by norm_num)).2 rfl (hr _ _ _ _ _) a1]
  have h := (hc (-1) (1 / 8) 30 n).1 (by linarith) (Or.inr hy) (Or.inr hy)
  have hE : energies (exW (-1) (1 / 8)) (n + 1) (exQ (-1) (1 / 8) 30) .pos r.1 r.2 none s = (writes (exW (-1) (1 / 8)) "FSOL.dat".toList [(1, 1 / 4), (2, exY)], .ok ()) := by
    unfold energies
    rw [a2]
    dsimp only
    change (match calcF (exQ (-1) (1 / 8) 30).par (rhsF (lam 4) ⟨none, none⟩ r.1 r.2) 4 ⟨s1, fresh, fresh, fresh⟩ (n + 1) with
      | .running l _ => (writes (exW (-1) (1 / 8)) (fFile .pos) l, (.error .running : Except Stop Unit))
      | .fail l _ => (writes (exW (-1) (1 / 8)) (fFile .pos) l, .error .thrown)
      | .done l _ => (writes (exW (-1) (1 / 8)) (fFile .pos) l, .ok ())) = _
    rw [h]
    rfl
  rw [hE]
  rfl

theorem shoot_no_success {q : Settings} {sign : Sign} {rho : Tab ℝ} (hs : q.par.outputStep ≤ 0) (hfine : 0 < q.par.dxFine) (hfast : 0 < q.par.dxFast) (hx : 2 < q.par.xmax)
    (st : LinState ℝ) (A : ℝ) (v : ℝ × Tab ℝ × LinState ℝ) : (shoot W n q sign rho st A).2 ≠ .ok v := by
  unfold shoot
  split
  · intro h; cases h
  · cases linEval rho st 1 with
    | none => intro h; cases h
    | some p =>
      dsimp only
      cases hl : shootLoop q.par (rhsG (lam q.Lambda) A rho) p.2 n with
      | running l o => intro h; cases h
      | fail l e => intro h; cases h
      | done l fin => exact absurd hl (no_end_without_step 1 hs hfine hfast hx n l fin).1

/-- **C135, violated.** A distance of the lines that is zero or negative is accepted, but then no run that computes the mesh ever ends with success. -/
theorem no_mesh_without_step {o : Options ℝ} {text : Str} {q : Settings} (hc : cmdLine num args = .ok o) (hf : fs o.paramFn = some text)
    (hq : settings W (toolParams text "param".toList) = .ok q) (ha : q.adapt = true) (hl : q.loadg = false) (hs : q.par.outputStep ≤ 0) (hfast : 0 < q.par.dxFast)
    (hx : 2 < q.par.xmax) (n : ℕ) : (program W num fs n args).2 ≠ .success := by
  intro h
  obtain ⟨text', hf', hr⟩ := program_ok (ops := (program W num fs n args).1) hc (Prod.ext rfl h)
  rw [hf] at hf'
  cases hf'
  unfold run at hr
  rw [hq, bind_lift] at hr
  obtain ⟨o3, r, o4, b1, b2, -⟩ := bind_ok hr
  cases e1 : linEval r.1 fresh 1 with
  | none => rw [e1] at b2; cases b2
  | some p =>
    rw [e1] at b2
    dsimp only at b2
    obtain ⟨o5, m, o6, c1, -, -⟩ := bind_ok b2
    unfold mesh at c1
    rw [ha, hl, if_neg (by decide), if_neg (by decide)] at c1
    split at c1
    · cases c1
    · obtain ⟨o7, r1, o8, d1, -, -⟩ := bind_ok c1
      unfold calcG at d1
      obtain ⟨o9, r2, o10, f1, -, -⟩ := bind_ok d1
      exact shoot_no_success hs (adapt_settings hq).2.2.2.2.1.2 hfast hx _ _ r2 (by rw [f1])

/-- Such parameters are accepted: there is no check of `outputstep` from below. -/
theorem no_step_accepted : ∃ (W : World) (q : Settings), settings W [("outputstep".toList, "0".toList), ("adapt".toList, "true".toList)] = .ok q ∧
    q.adapt = true ∧ q.loadg = false ∧ q.par.outputStep = 0 ∧ 0 < q.par.dxFast ∧ 2 < q.par.xmax := by
  let W : World := ⟨fun _ => some 0, fun _ => 0, fun _ _ => []⟩
  let m : Map := [("outputstep".toList, "0".toList), ("adapt".toList, "true".toList)]
  let q : Settings := ⟨2, ⟨lam 2, 1 / 10 ^ 10, 10, 30, 5, 0, 1 / 10 ^ 5, 1 / 10 ^ 4, 100⟩, true, false, none, 1, 1 / 10 ^ 4, 1 + 1 / 10 ^ 7, 10, "Delta.dat".toList⟩
  refine ⟨W, q, ?_, rfl, rfl, rfl, by norm_num [q], by norm_num [q]⟩
  have hR : readSettings W m = some q := by
    unfold readSettings
    rw [real_none W (k := "Lambda") (by decide), real_none W (k := "boundary") (by decide), real_none W (k := "bandrescale") (by decide),
      real_none W (k := "xmax") (by decide), real_none W (k := "xfine") (by decide), real_some W (k := "outputstep") (v := "0".toList) (by decide),
      real_none W (k := "dx_fine") (by decide), real_none W (k := "dx_fast") (by decide), real_none W (k := "allowed_error") (by decide),
      real_none W (k := "max_abs") (by decide), real_none W (k := "secant_eps") (by decide), real_none W (k := "secant_factor") (by decide),
      show toolBool m "adapt".toList false = true by decide, show toolBool m "loadg".toList false = false by decide, show toolBool m "hardgap".toList false = false by decide,
      show int W m "secant_max_iter" 10 = 10 by unfold int; rw [show m.get "secant_max_iter".toList = none by decide],
      show int W m "max_subdiv" 10 = 10 by unfold int; rw [show m.get "max_subdiv".toList = none by decide],
      show NrgChain.str m "dos" "Delta.dat".toList = "Delta.dat".toList by decide]
    rfl
  have hP : paramsOK q.Lambda (1 / 2 ^ 52) q.par = true := by
    unfold paramsOK
    simp only [q, Bool.and_eq_true, decide_eq_true_eq]
    norm_num
  change settings W m = .ok q
  unfold settings
  rw [hR]
  exact if_pos hP

end Verif.Arun
