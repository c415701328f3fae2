import Verif.NrgChain.Flat
/-!
# The calculation in two steps, and findings
-/

namespace Verif.NrgChain
open Verif.Tools Verif.Text Verif.Param MeasureTheory
open scoped Classical

variable {W : World} {fs : FS} {m : Mode} {p : Map} {s q : State} {ops : List Op} {c : Channel}

/-! ## The chain depends only on the tables and settings -/

theorem chainLoop_congr {s s' : State} (h1 : coefXi s = coefXi s') (h2 : coefZeta s = coefZeta s') (b : Bath) : ∀ (k n : ℕ) (l : LState) (xs zs : List ℝ),
    chainLoop W s b k n l xs zs = chainLoop W s' b k n l xs zs := by
  intro k
  induction k with
  | zero => intros; rfl
  | succ k ih =>
    intro n l xs zs
    rw [chainLoop, chainLoop]
    cases lanczosStep b l with
    | error e => rfl
    | ok l' => dsimp only; rw [ih, h1, h2]

theorem tridiag_congr {s s' : State} (hs : Same s s') (h1 : s'.deP = s.deP) (h2 : s'.deN = s.deN) (h3 : s'.duP = s.duP) (h4 : s'.duN = s.duN) :
    (tridiag W s').1 = (tridiag W s).1 ∧
    ((∃ x y, (tridiag W s).2 = .ok { s with xi := x, zeta := y } ∧ (tridiag W s').2 = .ok { s' with xi := x, zeta := y }) ∨
      ∃ e, (tridiag W s).2 = .error e ∧ (tridiag W s').2 = .error e) := by
  have hb : bathOf s' = bathOf s := by unfold bathOf; rw [h1, h2, h3, h4, hs.mMAX]
  have hsc : scale s' = scale s := by funext N; unfold scale; rw [hs.Lambda, hs.z]
  have hx : coefXi s' = coefXi s := by funext n x; unfold coefXi; rw [hs.rescalexi, hs.bandrescale, hsc]
  have hz : coefZeta s' = coefZeta s := by funext x; unfold coefZeta; rw [hs.bandrescale]
  unfold tridiag
  rw [hb, bind_of_ok, bind_of_ok, lift_bind, lift_bind]
  cases bathOf s with
  | error e => exact ⟨rfl, Or.inr ⟨e, rfl, rfl⟩⟩
  | ok b =>
    dsimp only
    cases lanczosInit b with
    | error e => exact ⟨rfl, Or.inr ⟨_, rfl, rfl⟩⟩
    | ok l =>
      dsimp only
      rw [chainLoop_congr hx hz b, hs.Nmax]
      generalize chainLoop W s b (s.Nmax + 1) 0 l [] [] = a
      obtain ⟨o, r⟩ := a
      cases r with
      | error e => exact ⟨rfl, Or.inr ⟨e, rfl, rfl⟩⟩
      | ok v => exact ⟨rfl, Or.inl ⟨v.1, v.2, rfl, rfl⟩⟩

theorem loadInput_flags (W : World) (fs : FS) (q : State) (a b d : Bool) : loadInput W fs { q with load := a, save := b, tri := d } =
    (fun i : State => { i with load := a, save := b, tri := d }) <$> loadInput W fs q := by
  have e1 : ∀ pos, loadRho W fs { q with load := a, save := b, tri := d } pos = loadRho W fs q pos := fun _ => rfl
  have e2 : loadGs W fs { q with load := a, save := b, tri := d } = loadGs W fs q := rfl
  unfold loadInput
  rw [e1, e1, e2]
  by_cases hb : q.band ≠ flatBand
  · rw [if_pos hb, if_pos hb]
    simp only [map_bind, map_pure]
  · rw [if_neg hb, if_neg hb]
    simp only [map_bind, map_pure]

/-! ## The calculation in two steps -/

/-- A number is read back from the tables as it was written. -/
def ReadsBack (W : World) (x : Option ℝ) : Prop :=
  W.atof (W.fmt 18 x) = x ∧ '\n' ∉ W.fmt 18 x ∧ W.fmt 18 x ≠ [] ∧ (W.fmt 18 x).head? ≠ some '#'

/-- The numbers in the tables of a calculation. -/
def TableEntry (W : World) (fs : FS) (q : State) (x : Option ℝ) : Prop :=
  ∃ i, loadInput W fs q = .ok i ∧ (x ∈ (withTables i).deP ∨ x ∈ (withTables i).deN ∨ x ∈ (withTables i).duP ∨ x ∈ (withTables i).duN)

theorem dataLines_table (W : World) (v : List (Option ℝ)) (h : ∀ x ∈ v, ReadsBack W x) : (Table.dataLines (v.flatMap (line W 18))).map W.atof = v := by
  induction v with
  | nil => rfl
  | cons x v ih =>
    obtain ⟨h1, h2, h3, h4⟩ := h x (by simp)
    have hrest := ih fun y hy => h y (by simp [hy])
    have e : (x :: v).flatMap (line W 18) = W.fmt 18 x ++ '\n' :: v.flatMap (line W 18) := by simp [line]
    unfold Table.dataLines at hrest ⊢
    rw [e, show split '\n' (W.fmt 18 x ++ '\n' :: v.flatMap (line W 18)) = W.fmt 18 x :: split '\n' (v.flatMap (line W 18)) by
      unfold split; rw [splitAux_nodelim _ _ _ _ h2]; rfl]
    rw [List.filter_cons, if_pos (by simpa using ⟨h3, h4⟩), List.map_cons, hrest, h1]

theorem saved_table (fs : FS) (W : World) (t : State) : let f := after fs (saveTables W t)
    f dePFile = some (t.deP.flatMap (line W 18)) ∧ f deNFile = some (t.deN.flatMap (line W 18)) ∧
    f duPFile = some (t.duP.flatMap (line W 18)) ∧ f duNFile = some (t.duN.flatMap (line W 18)) := by
  have n1 : ¬ dePFile = deNFile := by decide
  have n2 : ¬ dePFile = duPFile := by decide
  have n3 : ¬ dePFile = duNFile := by decide
  have n4 : ¬ deNFile = duPFile := by decide
  have n5 : ¬ deNFile = duNFile := by decide
  have n6 : ¬ duPFile = duNFile := by decide
  simp [after, saveTables, saveTable, Op.run, n1, n2, n3, n4, n5, n6]

theorem load_saved {W : World} {fs : FS} {t : List (Option ℝ)} {fn : Str} (h : fs fn = some (t.flatMap (line W 18))) (hr : ∀ x ∈ t, ReadsBack W x) :
    loadTable W fs fn = .ok t := by
  unfold loadTable
  rw [h]
  dsimp only
  rw [dataLines_table W t hr]

/-- **C98.** The calculation in two steps, first the tables and then the chain from the tables that were saved, gives the same coefficients, the same
end and the same files as a single calculation, provided that the numbers in the tables are read back as they were written. -/
theorem two_steps (hq : setParameters W { reset s with params := p } = .ok q) (hl : q.load = false) (ht : q.tri = true) (hr : ∀ x, TableEntry W fs q x → ReadsBack W x)
    (s' s'' : State) :
    (∀ e, (fromParams W fs p .saveOnly s').2 = .error e → fromParams W fs p .calculate s = ([], .error e)) ∧
    (∀ c₁, (fromParams W fs p .saveOnly s').2 = .ok c₁ →
      (∀ fn ∈ ["xi.dat".toList, "zeta.dat".toList, "theta.dat".toList],
        after (after fs (fromParams W fs p .saveOnly s').1) (fromParams W (after fs (fromParams W fs p .saveOnly s').1) p .loadAndTridiagonalize s'').1 fn =
          after fs (fromParams W fs p .calculate s).1 fn) ∧
      (∀ c, (fromParams W fs p .calculate s).2 = .ok c → c.theta = c₁.theta ∧
        (fromParams W (after fs (fromParams W fs p .saveOnly s').1) p .loadAndTridiagonalize s'').2 = .ok ⟨0, c.xi, c.zeta⟩) ∧
      (∀ e, (fromParams W fs p .calculate s).2 = .error e →
        (fromParams W (after fs (fromParams W fs p .saveOnly s').1) p .loadAndTridiagonalize s'').2 = .error e)) := by
  have hq' : setParameters W { reset s' with params := p } = .ok q := hq
  have hq'' : setParameters W { reset s'' with params := p } = .ok q := hq
  have hth0 : q.theta = 0 := by
    obtain ⟨L, z, a, b, r, x, N, M, c, bd, sv, ld, tr, rfl, -⟩ := setParameters_form hq
    rfl
  have hm1 : applyMode .saveOnly q = { q with load := false, save := true, tri := false } := rfl
  have one : run W fs .calculate { reset s with params := p } = (calcTables W fs q).bind fun s => if s.tri then tridiag W s else ([], .ok s) := by
    rw [run_eq, hq]
    dsimp only
    rw [show applyMode .calculate q = q from rfl, if_neg (by rw [hl]; simp)]
  have first : run W fs .saveOnly { reset s' with params := p } =
      (calcTables W fs { q with load := false, save := true, tri := false }).bind fun s => if s.tri then tridiag W s else ([], .ok s) := by
    rw [run_eq, hq']
    rfl
  rw [calc_eq] at one first
  rw [loadInput_flags] at first
  cases hi : loadInput W fs q with
  | error e =>
    rw [hi] at one first
    refine ⟨fun e' he' => ?_, fun c₁ hc₁ => ?_⟩
    · unfold fromParams at he' ⊢
      rw [first] at he'
      rw [one]
      cases he'
      rfl
    · unfold fromParams at hc₁
      rw [first] at hc₁
      cases hc₁
  | ok i =>
    rw [hi] at one first
    dsimp only [Functor.map, Except.map] at one first
    have hin := loadInput_ok hi
    obtain ⟨hsame, htri, -⟩ := same_input hin
    have htt : (withTables i).tri = true := by rw [← ht, ← htri]; rfl
    rw [bind_of_ok, if_pos htt] at one
    rw [bind_of_ok, if_neg (show ¬ (withTables { i with load := false, save := true, tri := false }).tri = true by simp [withTables])] at first
    dsimp only at first
    rw [if_pos rfl, List.append_nil] at first
    have hfirst : fromParams W fs p .saveOnly s' = (thetaOps W (star i).theta ++ saveTables W (withTables i), .ok ⟨(star i).theta, i.xi, i.zeta⟩) := by
      unfold fromParams
      rw [first, bind_of_ok, List.append_nil]
      rfl
    refine ⟨fun e' he' => ?_, fun c₁ hc₁ => ?_⟩
    · rw [hfirst] at he'; cases he'
    · rw [hfirst] at hc₁ ⊢
      cases hc₁
      dsimp only
      set fs1 := after fs (thetaOps W (star i).theta ++ saveTables W (withTables i)) with hfs1
      have hsv := saved_table (after fs (thetaOps W (star i).theta)) W (withTables i)
      dsimp only at hsv
      rw [← after_append, ← hfs1] at hsv
      have hload : loadTables W fs1 (applyMode .loadAndTridiagonalize q) =
          .ok { applyMode .loadAndTridiagonalize q with deP := (withTables i).deP, deN := (withTables i).deN, duP := (withTables i).duP, duN := (withTables i).duN } := by
        unfold loadTables
        rw [load_saved hsv.1 fun x hx => hr x ⟨i, hi, Or.inl hx⟩, load_saved hsv.2.1 fun x hx => hr x ⟨i, hi, Or.inr (Or.inl hx)⟩,
          load_saved hsv.2.2.1 fun x hx => hr x ⟨i, hi, Or.inr (Or.inr (Or.inl hx))⟩, load_saved hsv.2.2.2 fun x hx => hr x ⟨i, hi, Or.inr (Or.inr (Or.inr hx))⟩]
        rfl
      set r : State := { applyMode .loadAndTridiagonalize q with deP := (withTables i).deP, deN := (withTables i).deN, duP := (withTables i).duP, duN := (withTables i).duN } with hrdef
      have second : run W fs1 .loadAndTridiagonalize { reset s'' with params := p } = tridiag W r := by
        rw [run_eq, hq'']
        dsimp only
        rw [if_pos (show (applyMode .loadAndTridiagonalize q).load = true from rfl), hload, lift_bind]
        exact if_pos rfl
      have hsr : Same (withTables i) r := by
        have := hsame
        exact ⟨this.1.symm, this.2.symm, this.3.symm, this.4.symm, this.5.symm, this.6.symm, this.7.symm, this.8.symm, this.9.symm⟩
      obtain ⟨t1, t2⟩ := tridiag_congr (W := W) hsr rfl rfl rfl rfl
      have o2 : (fromParams W fs1 p .loadAndTridiagonalize s'').1 = (tridiag W (withTables i)).1 := by
        rw [(call_ops W fs1 p .loadAndTridiagonalize s'').1, second, t1]
      have o1 : (fromParams W fs p .calculate s).1 = thetaOps W (star i).theta ++ (if i.save then saveTables W (withTables i) else []) ++ (tridiag W (withTables i)).1 := by
        rw [(call_ops W fs p .calculate s).1, one]
      refine ⟨fun fn hfn => ?_, fun c hc => ?_, fun e he => ?_⟩
      · rw [o2, o1, after_append]
        have key : ∀ o fs fs', fs fn = fs' fn → after fs o fn = after fs' o fn := by
          intro o
          induction o with
          | nil => intro fs fs' h; exact h
          | cons x o ih =>
            intro fs fs' h
            refine ih (Op.run fs x) (Op.run fs' x) ?_
            cases x with
            | start f => simp only [Op.run, h]
            | put f t =>
              simp only [Op.run]
              by_cases hf : fn = f
              · subst hf; rw [if_pos rfl, if_pos rfl, h]
              · rw [if_neg hf, if_neg hf, h]
        apply key
        rw [hfs1, after_append, after_append]
        have nfn : fn ≠ dePFile ∧ fn ≠ deNFile ∧ fn ≠ duPFile ∧ fn ≠ duNFile := by
          simp only [List.mem_cons, List.not_mem_nil, or_false] at hfn
          rcases hfn with rfl | rfl | rfl <;> exact ⟨by decide, by decide, by decide, by decide⟩
        have nsv : ∀ o ∈ saveTables W (withTables i), o.file ≠ fn := by
          intro o ho h
          rcases save_files W _ o ho with k | k | k | k <;> rw [h] at k
          · exact nfn.1 k
          · exact nfn.2.1 k
          · exact nfn.2.2.1 k
          · exact nfn.2.2.2 k
        rw [after_other _ _ _ nsv]
        split
        · rw [after_other _ _ _ nsv]
        · rfl
      · unfold fromParams at hc ⊢
        rw [one] at hc
        rw [second]
        rcases t2 with ⟨x, y, k1, k2⟩ | ⟨e, k1, k2⟩
        · have hc' : (Except.ok ({ withTables i with xi := x, zeta := y } : State).channel : Except Stop Channel) = .ok c := by
            rw [← hc]; unfold Act.bind; dsimp only; rw [k1]
          cases hc'
          refine ⟨rfl, ?_⟩
          unfold Act.bind
          rw [k2]
          dsimp only [State.channel]
          rw [show r.theta = 0 from hth0]
        · exfalso
          unfold Act.bind at hc
          dsimp only at hc
          rw [k1] at hc
          cases hc
      · unfold fromParams at he ⊢
        rw [one] at he
        rw [second]
        rcases t2 with ⟨x, y, k1, k2⟩ | ⟨e', k1, k2⟩
        · exfalso
          unfold Act.bind at he
          dsimp only at he
          rw [k1] at he
          cases he
        · unfold Act.bind at he ⊢
          dsimp only at he
          rw [k1] at he
          rw [k2]
          exact he

/-! ## Findings -/

/-- **C98.** The second step returns no hybridisation strength: the value in the result is zero, whatever `theta.dat` contains. -/
theorem loaded_theta (h : fromParams W fs p .loadAndTridiagonalize s = (ops, .ok c)) : c.theta = 0 := by
  obtain ⟨t, ht, rfl⟩ := call_run h
  obtain ⟨q, r, o1, o2, h1, h2, h3, h4, h5, h6⟩ := run_stages ht
  rcases h6 with ⟨h6, -⟩ | ⟨-, -, h6⟩
  · rcases h6 with h6 | ⟨h6, -⟩ <;> cases h6
  · rw [if_pos (h3.mpr (Or.inl rfl))] at h5
    obtain ⟨b, -, k, -⟩ := tridiag_chain h2 (by rw [h5])
    obtain ⟨a1, a2, a3, a4, rfl, -⟩ := loadTables_ok h6
    obtain ⟨L, z, a, b, r, x, N, M, c, bd, sv, ld, tr, rfl, -⟩ := setParameters_form h1
    exact k

/-- **C98.** A table with too few lines is not noticed: the program reads beyond its end. -/
theorem short_table (hq : setParameters W { reset s with params := p } = .ok q) {t : Str} (h1 : fs "de_pos.dat".toList = some t)
    (hshort : (Table.dataLines t).length ≤ q.mMAX) (h2 : fs "de_neg.dat".toList ≠ none) (h3 : fs "du_pos.dat".toList ≠ none) (h4 : fs "du_neg.dat".toList ≠ none) :
    (fromParams W fs p .loadAndTridiagonalize s).2 = .error .undefined := by
  have some_of : ∀ fn, fs fn ≠ none → ∃ v, loadTable W fs fn = .ok v := by
    intro fn h
    unfold loadTable
    cases hf : fs fn with
    | none => exact absurd hf h
    | some t => exact ⟨_, rfl⟩
  have e1 : loadTable W fs dePFile = .ok ((Table.dataLines t).map W.atof) := by
    unfold loadTable
    rw [show fs dePFile = some t from h1]
  obtain ⟨v2, e2⟩ := some_of _ h2
  obtain ⟨v3, e3⟩ := some_of _ h3
  obtain ⟨v4, e4⟩ := some_of _ h4
  have hload : loadTables W fs (applyMode .loadAndTridiagonalize q) =
      .ok { applyMode .loadAndTridiagonalize q with deP := (Table.dataLines t).map W.atof, deN := v2, duP := v3, duN := v4 } := by
    unfold loadTables
    rw [e1, show loadTable W fs deNFile = .ok v2 from e2, show loadTable W fs duPFile = .ok v3 from e3, show loadTable W fs duNFile = .ok v4 from e4]
    rfl
  rw [(call_ops W fs p .loadAndTridiagonalize s).2, run_eq, hq]
  dsimp only
  rw [if_pos (show (applyMode .loadAndTridiagonalize q).load = true from rfl), hload, lift_bind]
  dsimp only
  rw [if_pos (show (applyMode .loadAndTridiagonalize q).tri = true from rfl)]
  unfold tridiag
  rw [bind_of_ok, lift_bind]
  have : bathOf { applyMode .loadAndTridiagonalize q with deP := (Table.dataLines t).map W.atof, deN := v2, duP := v3, duN := v4 } = .error .undefined := by
    unfold bathOf
    rw [if_pos]
    left
    rw [List.length_map]
    exact hshort
  rw [this]

theorem interpFn_nil (x : ℝ) : interpFn [] x = 0 := by
  unfold interpFn linEval
  rcases le_total x 0 with h | h
  · rw [if_pos (show x ≤ Tab.x ([] : Tab ℝ) 0 from h)]; rfl
  · by_cases h' : x ≤ Tab.x ([] : Tab ℝ) 0
    · rw [if_pos h']; rfl
    · rw [if_neg h', if_pos (show Tab.x ([] : Tab ℝ) (([] : Tab ℝ).length - 1) ≤ x from h)]; rfl

/-- **C97.** The option `adapt` with the flat band: no adapted mesh is read, the whole weight is in the first interval, and a chain with more than one
site is refused. -/
theorem flat_adapt (hq : setParameters W { reset s with params := p } = .ok q) (hf : q.band = "flat".toList) (ha : q.adapt = true) (hl : q.load = false)
    (ht : q.tri = true) (hN : 0 < q.Nmax) : (fromParams W fs p .calculate s).2 = .error .exit := by
  obtain ⟨hz0, hz1, hM0, hgp, hgn⟩ : 0 < q.z ∧ q.z ≤ 1 ∧ 0 < q.mMAX ∧ q.gP = [] ∧ q.gN = [] := by
    obtain ⟨L, z, a, b, r, x, N, M, c, bd, sv, ld, tr, rfl, k⟩ := setParameters_form hq
    exact ⟨k.2.1, k.2.2.1, k.2.2.2, rfl, rfl⟩
  obtain ⟨ti, total, hti, hin⟩ := flat_init
  let i : State := { q with rhoP := flatTab, rhoN := flatTab, intP := ti, intN := ti }
  have hload : loadInput W fs q = .ok i := by
    unfold loadInput
    have hf' : ¬ q.band ≠ flatBand := not_not.mpr hf
    rw [if_neg hf', hin]
    rfl
  have hG : ∀ a b, intFn flatTab ti b - intFn flatTab ti a = (b - a) / 2 := by
    intro a b
    rw [intFn_sub flatTab_good hti]
    simp only [flatTab_interp]
    rw [intervalIntegral.integral_const, smul_eq_mul]
    ring
  have heps : ∀ g, (g = i.gP ∨ g = i.gN) → ∀ x, epsMesh i.Lambda (gAt i g) x = if x ≤ 2 then 1 else 0 := by
    intro g hg x
    have hg' : g = [] := by rcases hg with rfl | rfl; exact hgp; exact hgn
    subst hg'
    have ha' : i.adapt = true := ha
    unfold epsMesh gAt
    simp only [ha', if_true, interpFn_nil, zero_mul]
  have hstar : ∀ k : ℕ, (star i).df k = if k = 0 then (1 / 2, 1 / 2) else (0, 0) := by
    intro k
    have : (star i).df k = (intFn flatTab ti (epsMesh i.Lambda (gAt i i.gP) (q.z + k + 1)) - intFn flatTab ti (epsMesh i.Lambda (gAt i i.gP) (q.z + k + 2)),
      intFn flatTab ti (epsMesh i.Lambda (gAt i i.gN) (q.z + k + 1)) - intFn flatTab ti (epsMesh i.Lambda (gAt i i.gN) (q.z + k + 2))) := rfl
    have hk0 : (0 : ℝ) ≤ k := Nat.cast_nonneg k
    rw [this, hG, hG, heps _ (Or.inl rfl), heps _ (Or.inl rfl), heps _ (Or.inr rfl), heps _ (Or.inr rfl), if_neg (show ¬ q.z + (k : ℝ) + 2 ≤ 2 by linarith)]
    rcases Nat.eq_zero_or_pos k with rfl | hk
    · rw [if_pos (by push_cast; linarith), if_pos rfl]; norm_num
    · have hk' : (1 : ℝ) ≤ k := by exact_mod_cast hk
      rw [if_neg (by linarith), if_neg (by omega)]; norm_num
  have htheta : (star i).theta = 1 := by
    have : (star i).theta = (intFn flatTab ti (epsMesh i.Lambda (gAt i i.gP) (q.z + 1)) - intFn flatTab ti (epsMesh i.Lambda (gAt i i.gP) (q.z + q.mMAX + 2))) +
      (intFn flatTab ti (epsMesh i.Lambda (gAt i i.gN) (q.z + 1)) - intFn flatTab ti (epsMesh i.Lambda (gAt i i.gN) (q.z + q.mMAX + 2))) := rfl
    have hM1 : (0 : ℝ) < q.mMAX := by exact_mod_cast hM0
    rw [this, hG, hG, heps _ (Or.inl rfl), heps _ (Or.inl rfl), heps _ (Or.inr rfl), heps _ (Or.inr rfl), if_pos (by linarith), if_neg (by linarith)]
    norm_num
  have hpos : 0 < (star i).theta := by rw [htheta]; norm_num
  have hnn : ∀ k ≤ i.mMAX, 0 ≤ ((star i).df k).1 ∧ 0 ≤ ((star i).df k).2 := by
    intro k _
    rw [hstar]
    split_ifs <;> norm_num
  obtain ⟨up, un, hu, -, -⟩ := star_normalised _ _ _ _ i.z i.mMAX hpos hnn
  have hu' : ∀ k ≤ q.mMAX, (star i).du k = (some (up k), some (un k)) ∧ 0 ≤ up k ∧ 0 ≤ un k ∧ up k * up k * (star i).theta = ((star i).df k).1 ∧
    un k * un k * (star i).theta = ((star i).df k).2 := hu
  have hget : ∀ (f : ℕ → Option ℝ) k, k ≤ q.mMAX → ((List.range (q.mMAX + 1)).map f).getD k none = f k := by
    intro f k hk
    rw [List.getD_eq_getElem?_getD, List.getElem?_map, List.getElem?_range (by omega)]
    rfl
  have hb : ∃ b, bathOf (withTables i) = .ok b := by
    unfold bathOf
    have e1 : (withTables i).deP = (List.range (q.mMAX + 1)).map fun m : ℕ => some (energyAt i i.fP (i.z + m + 1)) := rfl
    have e2 : (withTables i).deN = (List.range (q.mMAX + 1)).map fun m : ℕ => some (energyAt i i.fN (i.z + m + 1)) := rfl
    have e3 : (withTables i).duP = (List.range (q.mMAX + 1)).map fun m : ℕ => ((star i).du m).1 := rfl
    have e4 : (withTables i).duN = (List.range (q.mMAX + 1)).map fun m : ℕ => ((star i).du m).2 := rfl
    have e5 : (withTables i).mMAX = q.mMAX := rfl
    rw [if_neg, if_neg]
    · exact ⟨_, rfl⟩
    · rintro ⟨k, hk, h⟩
      rw [e5] at hk
      rw [e1, e2, e3, e4, hget _ k hk, hget _ k hk, hget _ k hk, hget _ k hk, (hu' k hk).1] at h
      simp at h
    · rw [e1, e2, e3, e4, e5]
      simp
  obtain ⟨b, hb⟩ := hb
  obtain ⟨hbM, hent⟩ := bathOf_ok hb
  have hbM' : b.M = q.mMAX := hbM
  have hu0 : ∀ k ≤ b.M, (b.u0.p k ≠ 0 ↔ k = 0) ∧ (b.u0.m k ≠ 0 → k = 0) := by
    intro k hk
    rw [hbM'] at hk
    obtain ⟨-, -, g3, g4⟩ := hent k hk
    have get : ∀ (f : ℕ → Option ℝ), ((List.range (q.mMAX + 1)).map f)[k]? = some (f k) := by
      intro f
      rw [List.getElem?_map, List.getElem?_range (by omega)]
      rfl
    have e3 := Option.some.inj ((get fun m : ℕ => ((star i).du m).1).symm.trans g3)
    have e4 := Option.some.inj ((get fun m : ℕ => ((star i).du m).2).symm.trans g4)
    obtain ⟨u1, u2, u3, u4, u5⟩ := hu' k hk
    rw [u1] at e3 e4
    rw [Option.some.inj e3, htheta, hstar k] at u4
    rw [Option.some.inj e4, htheta, hstar k] at u5
    constructor
    · constructor
      · intro h
        by_contra hk0
        rw [if_neg hk0] at u4
        simp at u4
        exact h u4
      · rintro rfl
        rw [if_pos rfl] at u4
        intro h0
        rw [h0] at u4
        norm_num at u4
    · intro h
      by_contra hk0
      rw [if_neg hk0] at u5
      simp at u5
      exact h u5
  have hcard : (energies b).card ≤ 2 := by
    have hsub : energies b ⊆ {b.ep 0, - b.em 0} := by
      intro e he
      unfold energies at he
      rcases Finset.mem_union.mp he with he | he
      · obtain ⟨k, hk, rfl⟩ := Finset.mem_image.mp he
        obtain ⟨hk1, hk2⟩ := Finset.mem_filter.mp hk
        have := ((hu0 k (by simpa [Nat.lt_succ_iff] using hk1)).1).mp hk2
        subst this
        simp
      · obtain ⟨k, hk, rfl⟩ := Finset.mem_image.mp he
        obtain ⟨hk1, hk2⟩ := Finset.mem_filter.mp hk
        have := (hu0 k (by simpa [Nat.lt_succ_iff] using hk1)).2 hk2
        subst this
        simp
    exact (Finset.card_le_card hsub).trans Finset.card_le_two
  have hdot : 0 < dot b.M b.u0 b.u0 := by
    rcases (dot_self_nonneg b.M b.u0).lt_or_eq with h | h
    · exact h
    · exact absurd (dot_self_zero b.M b.u0 h.symm 0 (Nat.zero_le _)).1 (((hu0 0 (Nat.zero_le _)).1).mpr rfl)
  rw [(call_ops W fs p .calculate s).2, run_eq, hq]
  dsimp only
  rw [show applyMode .calculate q = q from rfl, if_neg (by rw [hl]; simp), calc_eq, hload]
  dsimp only
  rw [bind_of_ok, if_pos (show (withTables i).tri = true from ht)]
  dsimp only
  obtain ⟨vx, vz, hlen, -, hres⟩ := tridiag_spec W (withTables i)
  rcases hres with ⟨⟨b', l, hb', hl', -, -⟩, -⟩ | ⟨e, hres, hcase⟩
  · exfalso
    rw [hb] at hb'
    cases hb'
    have := (chain_length b ((withTables i).Nmax + 1)).mp ⟨l, hl'⟩
    have e : (withTables i).Nmax = q.Nmax := rfl
    omega
  · rw [hres]
    rcases hcase with ⟨-, h⟩ | ⟨-, b', e', hb', he', rfl⟩ | ⟨b', l, e', hb', -, -, -, -, he', rfl⟩
    · rw [hb] at h; cases h
    · rw [hb] at hb'
      cases hb'
      rw [chain_stop b hdot _ _ he']
      rfl
    · rw [hb] at hb'
      cases hb'
      rw [chain_stop b hdot _ _ he']
      rfl

end Verif.NrgChain
