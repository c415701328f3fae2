import Verif.Arun.Lemmas
/-!
# Lemmas on `adapt`: the stages of the calculation
-/

namespace Verif.Arun
open Verif.Tools Verif.Text Verif.Param Verif.Adapt
open Verif.NrgChain (World FS Op after)

variable {W : World} {fs : FS} {n : ℕ} {q : Settings} {sign : Sign} {ops : List Op} {rho ti : Tab ℝ} {ρ : ℝ → ℝ} {st : LinState ℝ}

/-- The lengths are positive. -/
structure Steps (q : Settings) : Prop where
  step : 0 < q.par.outputStep
  fine : 0 < q.par.dxFine
  fast : 0 < q.par.dxFast

theorem shoot_ok (hq : Steps q) (hg : Good rho) (hρ : ∀ x, IsInterp rho x (ρ x)) (hs : Inv rho st) {A ratio : ℝ} {t : Tab ℝ} {st' : LinState ℝ}
    (h : shoot W n q sign rho st A = (ops, .ok (ratio, t, st'))) : ops = writes W (gFile sign) t ∧ Inv rho st' ∧ A ≠ 0 ∧
      Solution q (meshEq q.Lambda A ρ) 2 1 t ∧ ∃ e, t.getLast? = some e ∧ q.par.xmax ≤ e.1 ∧ ratio = e.2 / (A / ρ 0) := by
  unfold shoot at h
  split at h
  · cases h
  · rename_i hA
    obtain ⟨v, s1, e1, -, i1⟩ := linEval_spec hg hs 1
    rw [e1] at h
    dsimp only at h
    cases hl : shootLoop q.par (rhsG (lam q.Lambda) A rho) s1 n with
    | running l o => rw [hl] at h; cases h
    | fail l e => rw [hl] at h; cases h
    | done l fin =>
      rw [hl] at h
      dsimp only at h
      obtain ⟨c1, c2, c3, c4, c5⟩ := shoot_lines hq.step hq.fine hq.fast hl
      obtain ⟨i2, new, b1, b2⟩ := loop_ok (H := max q.par.dxFine q.par.dxFast) (agreesG (Λ := q.Lambda) (A := A) hg hρ) hq.step hq.fast (le_max_right _ _) n
        ⟨hq.fine, le_rfl, by norm_num⟩ (le_max_left _ _) i1 hl
      obtain ⟨r0, s2, e2, v2, i3⟩ := linEval_spec hg i2 0
      rw [e2] at h
      cases h
      refine ⟨rfl, i3, hA, ⟨c1, by rw [b1]; exact b2, c2, c3⟩, (fin.x, fin.y), c4, c5, ?_⟩
      rw [v2.unique hg (hρ 0)]

theorem secant_ok (hq : Steps q) (hg : Good rho) (hρ : ∀ x, IsInterp rho x (ρ x)) (k : ℕ) {x0 x1 y0 y1 : ℝ} (hs : Inv rho st) {t : Tab ℝ} {st' : LinState ℝ}
    (h : secant W n q sign rho k x0 x1 y0 y1 st = (ops, .ok (t, st'))) : (∃ pre, ops = pre ++ writes W (gFile sign) t) ∧ Inv rho st' ∧ Searched q ρ t := by
  induction k generalizing x0 x1 y0 y1 st ops with
  | zero =>
    unfold secant at h
    split at h
    · cases h
    · obtain ⟨o1, r, o2, h1, h2, h3⟩ := bind_ok h
      obtain ⟨ratio, t1, s1⟩ := r
      obtain ⟨a1, a2, a3, a4, e, a5, a6, a7⟩ := shoot_ok hq hg hρ hs h1
      dsimp only at h2
      split at h2
      · rename_i hr
        cases h2
        subst h3
        exact ⟨⟨[], by rw [a1]; simp⟩, a2, _, a3, a4, e, a5, a6, by rw [← a7]; exact hr⟩
      · cases h2
  | succ k ih =>
    unfold secant at h
    split at h
    · cases h
    · obtain ⟨o1, r, o2, h1, h2, h3⟩ := bind_ok h
      obtain ⟨ratio, t1, s1⟩ := r
      obtain ⟨a1, a2, a3, a4, e, a5, a6, a7⟩ := shoot_ok hq hg hρ hs h1
      dsimp only at h2
      split at h2
      · rename_i hr
        cases h2
        subst h3
        exact ⟨⟨[], by rw [a1]; simp⟩, a2, _, a3, a4, e, a5, a6, by rw [← a7]; exact hr⟩
      · obtain ⟨⟨pre, b1⟩, b2, b3⟩ := ih a2 h2
        exact ⟨⟨o1 ++ pre, by rw [h3, b1, List.append_assoc]⟩, b2, b3⟩

theorem calcG_ok (hq : Steps q) (hg : Good rho) (hρ : ∀ x, IsInterp rho x (ρ x)) {intA : ℝ} (hs : Inv rho st) {t : Tab ℝ} {st' : LinState ℝ}
    (h : calcG W n q sign rho st intA = (ops, .ok (t, st'))) : (∃ pre, ops = pre ++ writes W (gFile sign) t) ∧ Inv rho st' ∧ Searched q ρ t := by
  unfold calcG at h
  obtain ⟨o1, r, o2, h1, h2, h3⟩ := bind_ok h
  obtain ⟨ratio, t1, s1⟩ := r
  obtain ⟨a1, a2, a3, a4, e, a5, a6, a7⟩ := shoot_ok hq hg hρ hs h1
  dsimp only at h2
  split at h2
  · rename_i hr
    cases h2
    subst h3
    exact ⟨⟨[], by rw [a1]; simp⟩, a2, _, a3, a4, e, a5, a6, by rw [← a7]; exact hr⟩
  · obtain ⟨o1', r, o2', h1', h2', h3'⟩ := bind_ok h2
    obtain ⟨ratio', t1', s1'⟩ := r
    obtain ⟨a1', a2', a3', a4', e', a5', a6', a7'⟩ := shoot_ok hq hg hρ a2 h1'
    dsimp only at h2'
    split at h2'
    · rename_i hr
      cases h2'
      exact ⟨⟨o1, by rw [h3, h3', a1']; simp⟩, a2', _, a3', a4', e', a5', a6', by rw [← a7']; exact hr⟩
    · obtain ⟨⟨pre, b1⟩, b2, b3⟩ := secant_ok hq hg hρ _ a2' h2'
      exact ⟨⟨o1 ++ (o1' ++ pre), by rw [h3, h3', b1]; simp⟩, b2, b3⟩

theorem checked_ok {t t' : Tab ℝ} (h : checked t = .ok t') : t' = t ∧ Good t := by
  unfold checked at h
  split at h
  · rename_i hi
    cases h
    exact ⟨rfl, (NrgChain.good_iff t).mp hi⟩
  · cases h

/-- The stage of the mesh. -/
theorem mesh_ok (hq : Steps q) (hg : Good rho) (hρ : ∀ x, IsInterp rho x (ρ x)) (hs : Inv rho st) {g : Option (Tab ℝ)} {st' : LinState ℝ}
    (h : mesh W fs n q sign rho st = (ops, .ok (g, st'))) : Inv rho st' ∧ (q.adapt = false → g = none ∧ ops = []) ∧
      (q.adapt = true → ∃ t, g = some t ∧ Good t ∧ (q.loadg = true → NrgChain.loadG W fs (gFile sign) = .ok t ∧ ops = []) ∧
        (q.loadg = false → Searched q ρ t ∧ ∃ pre, ops = pre ++ writes W (gFile sign) t)) := by
  unfold mesh at h
  cases ha : q.adapt with
  | false =>
    rw [ha, if_pos rfl] at h
    cases h
    exact ⟨hs, fun _ => ⟨rfl, rfl⟩, fun h => by cases h⟩
  | true =>
    rw [ha, if_neg (by decide)] at h
    cases hl : q.loadg with
    | true =>
      rw [hl, if_pos rfl] at h
      cases hg' : NrgChain.loadG W fs (gFile sign) with
      | error e => rw [hg'] at h; cases h
      | ok t =>
        rw [hg'] at h
        obtain ⟨o1, t', o2, h1, h2, h3⟩ := bind_ok h
        obtain ⟨rfl, hc⟩ := lift_ok h1
        obtain ⟨rfl, hgd⟩ := checked_ok hc
        cases h2
        exact ⟨hs, (fun h => by cases h), fun _ => ⟨_, rfl, hgd, fun _ => ⟨rfl, h3⟩, fun h => by cases h⟩⟩
    | false =>
      rw [hl, if_neg (by decide)] at h
      split at h
      · cases h
      · obtain ⟨o1, r, o2, h1, h2, h3⟩ := bind_ok h
        obtain ⟨t, s1⟩ := r
        obtain ⟨o3, t', o4, h4, h5, h6⟩ := bind_ok h2
        obtain ⟨rfl, hc⟩ := lift_ok h4
        obtain ⟨rfl, hgd⟩ := checked_ok hc
        cases h5
        obtain ⟨b1, b2, b3⟩ := calcG_ok hq hg hρ hs h1
        refine ⟨b2, (fun h => by cases h), fun _ => ⟨_, rfl, hgd, (fun h => by cases h), fun _ => ⟨b3, ?_⟩⟩⟩
        obtain ⟨pre, e⟩ := b1
        exact ⟨pre, by rw [h3, h6, e]; simp⟩

/-- The stage of the energies. -/
theorem energies_ok (hq : Steps q) (hg : Good rho) {total : ℝ} (hti : trapez rho = some (ti, total)) (hρ : ∀ x, IsInterp rho x (ρ x)) (hs : Inv rho st)
    {m : Option (Tab ℝ)} {g : ℝ → ℝ} {b : ℝ} (hm : MeshIs ⟨m, q.boundary⟩ g b)
    (h : energies W n q sign rho ti m st = (ops, .ok ())) : ∃ t, ops = writes W (fFile sign) t ∧ Solution q (energyEq q.Lambda ρ (meshFn q.Lambda g b)) 1 (1 / q.Lambda) t ∧
      ∃ e, t.getLast? = some e ∧ (q.par.xmax ≤ e.1 ∨ q.par.maxAbs < |e.2|) := by
  unfold energies at h
  obtain ⟨v, s1, e1, -, i1⟩ := linEval_spec hg hs 1
  rw [e1] at h
  dsimp only at h
  cases hl : calcF q.par (rhsF (lam q.Lambda) ⟨m, q.boundary⟩ rho ti) q.Lambda ⟨s1, fresh, fresh, fresh⟩ n with
  | running l o => rw [hl] at h; cases h
  | fail l e => rw [hl] at h; cases h
  | done l fin =>
    rw [hl] at h
    cases h
    obtain ⟨c1, c2, c3, c4, c5⟩ := calcF_lines hq.step hq.fine hq.fast hl
    obtain ⟨i2, new, b1, b2⟩ := loop_ok (H := max q.par.dxFine q.par.dxFast) (agreesF (Λ := q.Lambda) hm hg hti hρ) hq.step hq.fast (le_max_right _ _) n
      ⟨hq.fine, le_rfl, by norm_num⟩ (le_max_left _ _) ⟨i1, fun t _ => inv_fresh t, inv_fresh _, inv_fresh _⟩ hl
    exact ⟨l, rfl, ⟨c1, by rw [b1]; exact b2, c2, c3⟩, (fin.x, fin.y), c4, c5⟩

/-! ## The hybridisation function -/

theorem flat_interp (γ : ℝ) (w : ℝ) : IsInterp [((1 : ℝ) / 10000000000, γ), (1, γ)] w γ := by
  rcases le_total w (1 / 10000000000) with h | h
  · exact Or.inl ⟨h, rfl⟩
  · rcases le_total 1 w with h' | h'
    · exact Or.inr (Or.inl ⟨h', rfl⟩)
    · refine Or.inr (Or.inr ⟨0, by simp, h, h', ?_⟩)
      change γ * (1 - 1 / 10000000000) = γ * (1 - w) + γ * (w - 1 / 10000000000)
      ring

theorem loadRho_ok {flat : Option ℝ} {r : Tab ℝ × Tab ℝ} (h : loadRho W fs q sign flat = .ok r) :
    Good r.1 ∧ (∃ total, trapez r.1 = some (r.2, total)) ∧ ∀ ρ : ℝ → ℝ, (∀ x, IsInterp r.1 x (ρ x)) → Hyb W fs q sign flat ρ := by
  unfold loadRho at h
  cases hs : sideTable W fs q sign flat with
  | error e => rw [hs] at h; cases h
  | ok t =>
    rw [hs] at h
    dsimp only at h
    split at h
    · cases h
    · rename_i hb
      have hb' : 0 < q.bandrescale := not_le.mp hb
      cases hi : initRho (1 / 10 ^ 99) q.bandrescale t with
      | none => rw [hi] at h; cases h
      | some r' =>
        rw [hi] at h
        dsimp only at h
        split at h
        · rename_i hinc
          cases h
          have hg := (NrgChain.good_iff r.1).mp hinc
          unfold initRho at hi
          dsimp only at hi
          cases ht : trapez (rescaleXY (1 / q.bandrescale) q.bandrescale (addZeroPoint (1 / 10 ^ 99) t)) with
          | none => rw [ht] at hi; cases hi
          | some p =>
            rw [ht] at hi
            obtain ⟨ti, total⟩ := p
            cases hi
            dsimp only at hg ⊢
            have key : ∀ Δ : ℝ → ℝ, Good t → (∀ w, IsInterp t w (Δ w)) → ∀ ρ : ℝ → ℝ,
                (∀ x, IsInterp (rescaleXY (1 / q.bandrescale) q.bandrescale (addZeroPoint (1 / 10 ^ 99) t)) x (ρ x)) → ∀ w, ρ w = q.bandrescale * Δ (q.bandrescale * w) := by
              intro Δ hT hΔ ρ hρ w
              have h3 := addZero_interp (small := 1 / 10 ^ 99) hT (hΔ (q.bandrescale * w))
              have h4 := rescale_interp hb' h3
              rw [mul_div_cancel_left₀ _ hb'.ne'] at h4
              rw [(hρ w).unique hg h4, mul_comm]
            refine ⟨hg, ⟨total, ht⟩, fun ρ hρ => ⟨interp_continuous hg hρ, hb', fun γ hγ => ?_, fun hf => ?_⟩⟩
            · subst hγ
              unfold sideTable at hs
              dsimp only at hs
              unfold flatRho at hs
              split at hs
              · rename_i t' ht'
                split at ht'
                · rename_i hpos
                  cases ht'
                  cases hs
                  refine ⟨hpos, fun w => key (fun _ => γ) ⟨by simp, fun i hi => ?_⟩ (flat_interp γ) ρ hρ w⟩
                  have : i = 0 := by simp at hi; omega
                  subst this
                  change (1 : ℝ) / 10000000000 < 1
                  norm_num
                · cases ht'
              · cases hs
            · subst hf
              unfold sideTable at hs
              dsimp only at hs
              cases hl : NrgChain.loadSide W fs q.dos (decide (sign = .pos)) with
              | error e => rw [hl] at hs; cases hs
              | ok T =>
                rw [hl] at hs
                cases hs
                exact ⟨_, rfl, fun Δ hT hΔ w => key Δ hT hΔ ρ hρ w⟩
        · cases h

/-! ## Files -/

theorem shoot_files (st : LinState ℝ) (A : ℝ) : ∀ o ∈ (shoot W n q sign rho st A).1, o.file = gFile sign := by
  unfold shoot
  split
  · intro o ho; cases ho
  · cases linEval rho st 1 with
    | none => exact writes_file W _ _
    | some p =>
      dsimp only
      cases shootLoop q.par (rhsG (lam q.Lambda) A rho) p.2 n with
      | running l o => exact writes_file W _ _
      | fail l e => exact writes_file W _ _
      | done l fin =>
        dsimp only
        cases linEval rho fin.obj 0 <;> exact writes_file W _ _

theorem secant_files (k : ℕ) (x0 x1 y0 y1 : ℝ) (st : LinState ℝ) : ∀ o ∈ (secant W n q sign rho k x0 x1 y0 y1 st).1, o.file = gFile sign := by
  induction k generalizing x0 x1 y0 y1 st with
  | zero =>
    unfold secant
    split
    · intro o ho; cases ho
    · refine bind_mem (shoot_files _ _) fun r => ?_
      split <;> (intro o ho; cases ho)
  | succ k ih =>
    unfold secant
    split
    · intro o ho; cases ho
    · refine bind_mem (shoot_files _ _) fun r => ?_
      split
      · intro o ho; cases ho
      · exact ih _ _ _ _ _

theorem calcG_files (st : LinState ℝ) (A : ℝ) : ∀ o ∈ (calcG W n q sign rho st A).1, o.file = gFile sign := by
  unfold calcG
  refine bind_mem (shoot_files _ _) fun r => ?_
  split
  · intro o ho; cases ho
  · refine bind_mem (shoot_files _ _) fun r => ?_
    split
    · intro o ho; cases ho
    · exact secant_files _ _ _ _ _ _

theorem lift_files {α : Type} (r : Except Stop α) (P : Op → Prop) : ∀ o ∈ (lift r).1, P o := fun o ho => by cases ho

theorem mesh_files (st : LinState ℝ) : ∀ o ∈ (mesh W fs n q sign rho st).1, o.file = gFile sign := by
  unfold mesh
  split
  · intro o ho; cases ho
  · split
    · cases NrgChain.loadG W fs (gFile sign) with
      | error e => intro o ho; cases ho
      | ok t => exact bind_mem (lift_files _ _) fun t o ho => by cases ho
    · split
      · intro o ho; cases ho
      · exact bind_mem (calcG_files _ _) fun r => bind_mem (lift_files _ _) fun t o ho => by cases ho

theorem energies_files (g : Option (Tab ℝ)) (st : LinState ℝ) : ∀ o ∈ (energies W n q sign rho ti g st).1, o.file = fFile sign := by
  unfold energies
  cases linEval rho st 1 with
  | none => exact writes_file W _ _
  | some p =>
    dsimp only
    cases calcF q.par (rhsF (lam q.Lambda) ⟨g, q.boundary⟩ rho ti) q.Lambda ⟨p.2, fresh, fresh, fresh⟩ n <;> exact writes_file W _ _

/-- Only the two files of this sign are written. -/
theorem run_files (p : Map) (flat : Option ℝ) : ∀ o ∈ (run W fs n p sign flat).1, o.file = gFile sign ∨ o.file = fFile sign := by
  unfold run
  refine bind_mem (lift_files _ _) fun s => bind_mem (lift_files _ _) fun r => ?_
  cases linEval r.1 fresh 1 with
  | none => intro o ho; cases ho
  | some p => exact bind_mem (fun o ho => Or.inl (mesh_files _ o ho)) fun m o ho => Or.inr (energies_files _ _ o ho)

theorem names_ne (s s' : Sign) : gFile s ≠ fFile s' := by cases s <;> cases s' <;> decide

end Verif.Arun
