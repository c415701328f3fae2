import Verif.NrgChain.Spec
/-!
# The coefficients of a Wilson chain: what the tool computes and writes
-/

namespace Verif.NrgChain
open Verif.Tools Verif.Text Verif.Param MeasureTheory
open scoped Classical

variable {W : World} {fs : FS} {m : Mode} {p : Map} {s q : State} {ops : List Op} {c : Channel}

/-! ## Independence of earlier calls -/

/-- **C96.** The result of a call, and what it writes, do not depend on the calculations made before in the same process. -/
theorem call_history (W : World) (fs : FS) (p : Map) (m : Mode) (s s' : State) : fromParams W fs p m s = fromParams W fs p m s' := rfl

/-- **C96.** The same for the call with a file of parameters, which is the call with the parameters in its block `[param]`. -/
theorem call_file (W : World) (fs : FS) (fn : Str) (m : Mode) (s s' : State) : fromFile W fs fn m s =
    match fs fn with
    | none => ([], .error .exit)
    | some t => fromParams W fs (match toolFind "param".toList (lines t) with | none => [] | some ls => toolParse ls []) m s' := by
  unfold fromFile
  rw [lift_bind]
  unfold parse
  cases fs fn with
  | none => rfl
  | some t =>
    dsimp only
    cases toolFind "param".toList (lines t) <;> rfl

theorem setParameters_congr (W : World) (s : State) (p : Map) :
    setParameters W { static with params := p } = setParameters W { reset s with params := p } := by
  unfold setParameters
  dsimp only
  cases W.real p "Lambda" 2 with
  | none => rfl
  | some L => rfl

theorem run_congr {s s' : State} (h : setParameters W s = setParameters W s') : run W fs m s = run W fs m s' := by
  unfold run
  rw [h]

/-- **C96.** The program does what the call does: the same operations on files, and it ends with success if and only if the call returns. -/
theorem program_call (W : World) (fs : FS) (args : List Str) (h : args.head? ≠ some "-h".toList) (s : State) :
    main W args fs static = ((fromFile W fs "param".toList (modeOf args) s).1, exitOf (fromFile W fs "param".toList (modeOf args) s).2) := by
  unfold main
  rw [if_neg h]
  dsimp only
  unfold fromFile
  rw [lift_bind, lift_bind]
  unfold parse
  cases fs "param".toList with
  | none => rfl
  | some t =>
    have key : ∀ pp : Map, ((run W fs (modeOf args) { static with params := pp }).1, exitOf (run W fs (modeOf args) { static with params := pp }).2) =
        (((run W fs (modeOf args) { reset s with params := pp }).bind fun s => (([], .ok s.channel) : Act Channel)).1,
          exitOf ((run W fs (modeOf args) { reset s with params := pp }).bind fun s => (([], .ok s.channel) : Act Channel)).2) := by
      intro pp
      rw [run_congr (setParameters_congr W s pp)]
      generalize run W fs (modeOf args) { reset s with params := pp } = a
      obtain ⟨o, r⟩ := a
      cases r with
      | error e => cases e <;> rfl
      | ok x => simp [Act.bind, exitOf]
    dsimp only
    cases toolFind "param".toList (lines t) with
    | none => exact key []
    | some ls => exact key _

/-! ## Parts of a successful call -/

theorem call_run (h : fromParams W fs p m s = (ops, .ok c)) : ∃ t, run W fs m { reset s with params := p } = (ops, .ok t) ∧ c = t.channel := by
  unfold fromParams at h
  obtain ⟨o1, t, o2, h1, h2, h3⟩ := bind_ok h
  cases h2
  exact ⟨t, by rw [h3, List.append_nil]; exact h1, rfl⟩

theorem run_parts {t : State} (h : run W fs m s = (ops, .ok t)) : ∃ q o1 r o2, setParameters W s = .ok q ∧
    (if (applyMode m q).load then lift (loadTables W fs (applyMode m q)) else calcTables W fs (applyMode m q)) = (o1, .ok r) ∧
    (if r.tri then tridiag W r else ([], .ok r)) = (o2, .ok t) ∧ ops = o1 ++ o2 := by
  rw [run_eq] at h
  cases hq : setParameters W s with
  | error e => rw [hq] at h; cases h
  | ok q =>
    rw [hq] at h
    obtain ⟨o1, r, o2, h1, h2, h3⟩ := bind_ok h
    exact ⟨q, o1, r, o2, rfl, h1, h2, h3⟩

theorem chain_iff (m : Mode) (q : State) : (applyMode m q).tri = true ↔ Chain m q := by
  cases m <;> simp [applyMode, Chain]

theorem calc_iff (m : Mode) (q : State) : (applyMode m q).load = false ↔ Calculates m q := by
  cases m <;> simp [applyMode, Calculates]

/-- The settings that the later stages read are those of the beginning. -/
structure Same (q r : State) : Prop where
  params : r.params = q.params
  Lambda : r.Lambda = q.Lambda
  z : r.z = q.z
  mMAX : r.mMAX = q.mMAX
  Nmax : r.Nmax = q.Nmax
  bandrescale : r.bandrescale = q.bandrescale
  rescalexi : r.rescalexi = q.rescalexi
  adapt : r.adapt = q.adapt
  band : r.band = q.band

theorem Same.trans {a b c : State} (h : Same a b) (k : Same b c) : Same a c :=
  ⟨k.1.trans h.1, k.2.trans h.2, k.3.trans h.3, k.4.trans h.4, k.5.trans h.5, k.6.trans h.6, k.7.trans h.7, k.8.trans h.8, k.9.trans h.9⟩

theorem same_mode (m : Mode) (q : State) : Same q (applyMode m q) := by
  cases m <;> exact ⟨rfl, rfl, rfl, rfl, rfl, rfl, rfl, rfl, rfl⟩

theorem same_input {q i : State} (h : Input W fs q i) : Same q i ∧ i.tri = q.tri ∧ i.save = q.save := by
  obtain ⟨rp, rn, ip, inn, gp, gn, fp, fn, rfl⟩ := h.form
  exact ⟨⟨rfl, rfl, rfl, rfl, rfl, rfl, rfl, rfl, rfl⟩, rfl, rfl⟩

theorem same_withTables (i : State) : Same i (withTables i) := ⟨rfl, rfl, rfl, rfl, rfl, rfl, rfl, rfl, rfl⟩

/-- The stages of a successful run. -/
theorem run_stages {t : State} (h : run W fs m s = (ops, .ok t)) : ∃ q r o1 o2, setParameters W s = .ok q ∧ Same q r ∧ (r.tri = true ↔ Chain m q) ∧
    ops = o1 ++ o2 ∧ (if r.tri then tridiag W r else ([], .ok r)) = (o2, .ok t) ∧
    ((Calculates m q ∧ ∃ i, Input W fs (applyMode m q) i ∧ r = withTables i ∧
        o1 = thetaOps W (star i).theta ++ (if i.save then saveTables W (withTables i) else [])) ∨
     (¬ Calculates m q ∧ o1 = [] ∧ loadTables W fs (applyMode m q) = .ok r)) := by
  obtain ⟨q, o1, r, o2, h1, h2, h3, h4⟩ := run_parts h
  by_cases hl : (applyMode m q).load = true
  · rw [if_pos hl] at h2
    have h5 : loadTables W fs (applyMode m q) = .ok r ∧ o1 = [] := by
      unfold lift at h2
      exact ⟨(Prod.mk.inj h2).2, (Prod.mk.inj h2).1.symm⟩
    obtain ⟨a, b, c, d, hr, -⟩ := loadTables_ok h5.1
    refine ⟨q, r, o1, o2, h1, (same_mode m q).trans (by rw [hr]; exact ⟨rfl, rfl, rfl, rfl, rfl, rfl, rfl, rfl, rfl⟩), ?_, h4, h3, Or.inr ⟨?_, h5.2, h5.1⟩⟩
    · rw [← chain_iff, hr]
    · rw [← calc_iff, hl]; simp
  · have hl' : (applyMode m q).load = false := by simpa using hl
    rw [if_neg hl, calc_eq] at h2
    cases hi : loadInput W fs (applyMode m q) with
    | error e => rw [hi] at h2; cases h2
    | ok i =>
      rw [hi] at h2
      cases h2
      have hin := loadInput_ok hi
      obtain ⟨k1, k2, -⟩ := same_input hin
      refine ⟨q, _, _, o2, h1, ((same_mode m q).trans k1).trans (same_withTables i), ?_, h4, h3, Or.inl ⟨(calc_iff m q).mp hl', i, hin, rfl, rfl⟩⟩
      rw [← chain_iff, ← k2]
      rfl

/-! ## The coefficients -/

theorem scale_eq (q : State) (n : ℕ) : scale q (n + 1) = (1 - 1 / q.Lambda) / Real.log q.Lambda * q.Lambda ^ (1 - q.z - (n : ℝ) / 2) := by
  unfold scale
  congr 2
  push_cast
  ring

theorem tridiag_chain {r t : State} {q : State} (hs : Same q r) (h : (tridiag W r).2 = .ok t) :
    ∃ b, bathOf r = .ok b ∧ t.theta = r.theta ∧ IsChain q b t.channel := by
  obtain ⟨vx, vz, hlen, ho, hr⟩ := tridiag_spec W r
  rcases hr with ⟨⟨b, l, hb, hl, hx, hz⟩, hr⟩ | ⟨e, hr, -⟩
  · rw [hr] at h
    cases h
    refine ⟨b, hb, rfl, ?_⟩
    obtain ⟨u, xi, zeta, k1, k2, k3, k4, k5⟩ := chain_tridiagonal b (r.Nmax + 1) l hl
    rw [hs.Nmax] at k1 k2 k3
    refine ⟨u, xi, zeta, k1, k4, k5, ?_, ?_⟩
    · change vx = _
      rw [hx, xis, k2]
      apply List.ext_getElem
      · simp
      · intro n h1 h2
        simp only [List.getElem_mapIdx, List.getElem_map, List.getElem_range]
        unfold coefXi
        rw [hs.rescalexi, hs.bandrescale, scale_eq, hs.Lambda, hs.z]
        ring
    · change vz = _
      rw [hz, zetas, k3, List.map_map]
      refine List.map_congr_left fun n _ => ?_
      simp [coefZeta, hs.bandrescale]
  · rw [hr] at h; cases h

theorem load_number {t : List (Option ℝ)} {fn : Str} (h : loadTable W fs fn = .ok t) {k : ℕ} {x : ℝ} (hk : t[k]? = some (some x)) : NumberAt W fs fn k x := by
  unfold loadTable at h
  cases hf : fs fn with
  | none => rw [hf] at h; cases h
  | some text =>
    rw [hf] at h
    cases h
    rw [List.getElem?_map] at hk
    cases hl : (Table.dataLines text)[k]? with
    | none => rw [hl] at hk; cases hk
    | some l =>
      rw [hl] at hk
      exact ⟨text, l, hf, hl, Option.some.inj hk⟩

/-- **C97.** The chain computed from tables that are read. -/
theorem loaded_chain (h : fromParams W fs p m s = (ops, .ok c)) (hq : setParameters W { reset s with params := p } = .ok q) (hc : Chain m q)
    (hl : ¬ Calculates m q) : ∃ b : Bath, b.M = q.mMAX ∧ (∀ k ≤ q.mMAX, NumberAt W fs "de_pos.dat".toList k (b.ep k) ∧
      NumberAt W fs "de_neg.dat".toList k (b.em k) ∧ NumberAt W fs "du_pos.dat".toList k (b.u0.p k) ∧ NumberAt W fs "du_neg.dat".toList k (b.u0.m k)) ∧
      IsChain q b c := by
  obtain ⟨t, ht, rfl⟩ := call_run h
  obtain ⟨q', r, o1, o2, h1, h2, h3, h4, h5, h6⟩ := run_stages ht
  rw [hq] at h1
  cases h1
  rcases h6 with ⟨h6, -⟩ | ⟨-, -, h6⟩
  · exact absurd h6 hl
  · rw [if_pos (h3.mpr hc)] at h5
    obtain ⟨b, hb, -, hch⟩ := tridiag_chain h2 (by rw [h5])
    obtain ⟨hM, hent⟩ := bathOf_ok hb
    rw [h2.mMAX] at hM hent
    obtain ⟨a1, a2, a3, a4, rfl, l1, l2, l3, l4⟩ := loadTables_ok h6
    refine ⟨b, hM, fun k hk => ?_, hch⟩
    obtain ⟨e1, e2, e3, e4⟩ := hent k hk
    exact ⟨load_number l1 e1, load_number l2 e2, load_number l3 e3, load_number l4 e4⟩

/-! ## The star -/

theorem interpFn_spec {t : Tab ℝ} (h : Good t) (x : ℝ) : IsInterp t x (interpFn t x) := by
  obtain ⟨v, s', h1, h2, -⟩ := linEval_spec h (s := ⟨none, 0, 0, 0, 0, 0, false⟩) (by intro i hi; cases hi) x
  unfold interpFn
  rw [h1]
  exact h2

theorem intFn_spec {t ti : Tab ℝ} {total : ℝ} (h : Good t) (hti : trapez t = some (ti, total)) (x : ℝ) :
    intFn t ti x = ∫ w in (t.x 0)..x, interpFn t w := by
  obtain ⟨s', h1, -⟩ := intEval_integral h hti (interpFn_spec h) (s := ⟨none, 0, 0, 0, 0, 0, false⟩) (by intro i hi; cases hi) x
  unfold intFn
  rw [h1]
  rfl

theorem intFn_sub {t ti : Tab ℝ} {total : ℝ} (h : Good t) (hti : trapez t = some (ti, total)) (a b : ℝ) :
    intFn t ti b - intFn t ti a = ∫ w in a..b, interpFn t w := by
  have hc := interp_continuous h (interpFn_spec h)
  rw [intFn_spec h hti, intFn_spec h hti]
  exact intervalIntegral.integral_interval_sub_left (hc.intervalIntegrable _ _) (hc.intervalIntegrable _ _)

theorem flatTab_good : Good flatTab := by
  refine ⟨by simp [flatTab], fun i hi => ?_⟩
  have : i = 0 := by simp [flatTab] at hi; omega
  subst this
  change mindbl < 1
  unfold mindbl
  rw [div_lt_one (by positivity)]
  exact one_lt_pow₀ (by norm_num) (by norm_num)

theorem flatTab_interp (w : ℝ) : interpFn flatTab w = 1 / 2 := by
  refine (interpFn_spec flatTab_good w).unique flatTab_good ?_
  rcases le_total w (flatTab.x 0) with h | h
  · exact Or.inl ⟨h, rfl⟩
  · rcases le_total (flatTab.x (flatTab.length - 1)) w with h' | h'
    · exact Or.inr (Or.inl ⟨h', rfl⟩)
    · refine Or.inr (Or.inr ⟨0, by simp [flatTab], h, h', ?_⟩)
      change 1 / 2 * (1 - mindbl) = 1 / 2 * (1 - w) + 1 / 2 * (w - mindbl)
      ring

theorem isBand {i : State} {pos : Bool} {t : Tab ℝ} (hg : Good t) (hf : q.band = flatBand → t = flatTab) (hr : q.band ≠ flatBand → loadRho W fs q pos = .ok t) :
    IsBand W fs q pos (interpFn t) := by
  refine ⟨interp_continuous hg (interpFn_spec hg), fun h w => by rw [hf h]; exact flatTab_interp w, fun h => ?_⟩
  have h1 := hr h
  unfold loadRho at h1
  cases h2 : loadSide W fs (str q.params "dos" "Delta.dat".toList) pos with
  | error e => rw [h2] at h1; cases h1
  | ok T =>
    rw [h2] at h1
    dsimp only at h1
    split at h1
    · cases h1
    · rename_i hb
      have hb' : 0 < q.bandrescale := not_le.mp hb
      cases h1
      refine ⟨hb', T, rfl, fun Δ hT hΔ w => ?_⟩
      have h3 := Adapt.rescale_interp hb' (hΔ (q.bandrescale * w))
      rw [mul_div_cancel_left₀ _ hb'.ne'] at h3
      have h4 := Adapt.addZero_interp (small := 1 / 10 ^ 99) (Adapt.rescale_good hb' hT) h3
      rw [(interpFn_spec hg w).unique hg h4, mul_comm]

theorem epsFlat_eq {L x : ℝ} (hL : 1 < L) (hx : 1 ≤ x) : epsFlat L x =
    if x ≤ 2 then 2 - x + (1 - L ^ (1 - x)) / Real.log L else (1 - 1 / L) / Real.log L * L ^ (2 - x) := by
  have hL0 : 0 < L := by linarith
  unfold epsFlat
  dsimp only
  have hinv : L ^ (-1 : ℝ) = 1 / L := by rw [Real.rpow_neg_one, one_div]
  by_cases h2 : x < 2
  · have hj : ⌊x⌋ = 1 := by rw [Int.floor_eq_iff]; constructor <;> push_cast <;> linarith
    rw [hj, if_pos rfl, if_pos h2.le]
    rw [show -(x - ((1 : ℤ) : ℝ)) = 1 - x by push_cast; ring]
    push_cast
    ring
  · have hj : ⌊x⌋ ≠ 1 := by
      intro h
      rw [Int.floor_eq_iff] at h
      push_cast at h
      linarith [h.2]
    rw [if_neg hj, hinv, show 2 - (⌊x⌋ : ℝ) - (x - (⌊x⌋ : ℝ)) = 2 - x by ring]
    by_cases h3 : x = 2
    · subst h3
      rw [if_pos (le_refl _), sub_self, Real.rpow_zero, show (1 : ℝ) - 2 = -1 by norm_num, hinv]
      ring
    · rw [if_neg (by intro h; exact h3 (le_antisymm h (not_lt.mp h2)))]

theorem isEnergy {i : State} (hL : 1 < q.Lambda) {fn : Str} {t : Tab ℝ} (hs : Same q i) (hr : q.band ≠ flatBand → loadG W fs fn = .ok t ∧ Good t) :
    IsEnergy W fs q fn (energyAt i t) := by
  refine ⟨fun h x hx => ?_, fun h => ?_⟩
  · unfold energyAt
    rw [if_pos (by rw [hs.band]; exact h), hs.Lambda]
    exact epsFlat_eq hL hx
  · obtain ⟨h1, h2⟩ := hr h
    refine ⟨t, interpFn t, h1, h2, interpFn_spec h2, fun x => ?_⟩
    unfold energyAt
    rw [if_neg (by rw [hs.band]; exact h), hs.Lambda]

theorem isMesh {i : State} {fn : Str} {t : Tab ℝ} (hs : Same q i) (hr : q.band ≠ flatBand → q.adapt = true → loadG W fs fn = .ok t ∧ Good t) :
    IsMesh W fs q fn (epsMesh i.Lambda (gAt i t)) := by
  refine ⟨fun h x => ?_, fun h hb => ?_⟩
  · unfold epsMesh gAt
    rw [hs.adapt, h, hs.Lambda]
    simp
  · obtain ⟨h1, h2⟩ := hr hb h
    refine ⟨t, interpFn t, h1, h2, interpFn_spec h2, fun x => ?_⟩
    unfold epsMesh gAt
    rw [hs.adapt, h, hs.Lambda]
    simp

/-! ## The files that are written -/

theorem texts_pass (vx vz : List ℝ) (h : vx.length = vz.length) :
    texts xiFile ((vx.zip vz).flatMap (pass W)) = fileOf W vx ∧ texts zetaFile ((vx.zip vz).flatMap (pass W)) = fileOf W vz := by
  induction vx generalizing vz with
  | nil =>
    have : vz = [] := List.eq_nil_of_length_eq_zero (by simpa using h.symm)
    subst this
    exact ⟨rfl, rfl⟩
  | cons x vx ih =>
    cases vz with
    | nil => simp at h
    | cons y vz =>
      obtain ⟨h1, h2⟩ := ih vz (by simpa using h)
      have ne : (xiFile = zetaFile) = False := by simp; decide
      have ne' : (zetaFile = xiFile) = False := by simp; decide
      constructor
      · simp only [List.zip_cons_cons, List.flatMap_cons, texts, List.flatMap_append] at h1 ⊢
        rw [h1]
        simp [pass, fileOf, line, ne']
      · simp only [List.zip_cons_cons, List.flatMap_cons, texts, List.flatMap_append] at h2 ⊢
        rw [h2]
        simp [pass, fileOf, line, ne]

theorem pass_files (l : List (ℝ × ℝ)) : ∀ o ∈ l.flatMap (pass W), (o.file = xiFile ∨ o.file = zetaFile) ∧ ∀ fn, o ≠ .start fn := by
  intro o ho
  obtain ⟨x, -, hx⟩ := List.mem_flatMap.mp ho
  simp only [pass, List.mem_cons, List.not_mem_nil, or_false] at hx
  rcases hx with rfl | rfl
  · exact ⟨Or.inl rfl, fun fn h => nomatch h⟩
  · exact ⟨Or.inr rfl, fun fn h => nomatch h⟩

/-- The two files after some passes. -/
theorem after_chain (fs : FS) (vx vz : List ℝ) (h : vx.length = vz.length) (extra : List Op) (he : ∀ o ∈ extra, ∀ fn, o ≠ .start fn) :
    after fs (.start xiFile :: .start zetaFile :: ((vx.zip vz).flatMap (pass W) ++ extra)) xiFile = some (fileOf W vx ++ texts xiFile extra) ∧
    after fs (.start xiFile :: .start zetaFile :: ((vx.zip vz).flatMap (pass W) ++ extra)) zetaFile = some (fileOf W vz ++ texts zetaFile extra) := by
  obtain ⟨h1, h2⟩ := texts_pass (W := W) vx vz h
  have ne : ¬ xiFile = zetaFile := by decide
  have hops : ∀ fn, ∀ o ∈ (vx.zip vz).flatMap (pass W) ++ extra, o ≠ .start fn := by
    intro fn o ho
    rcases List.mem_append.mp ho with ho | ho
    · exact (pass_files _ o ho).2 fn
    · exact he o ho fn
  have split : ∀ fn, texts fn ((vx.zip vz).flatMap (pass W) ++ extra) = texts fn ((vx.zip vz).flatMap (pass W)) ++ texts fn extra := fun fn => by
    simp [texts]
  constructor
  · have := after_puts (Op.run (Op.run fs (.start xiFile)) (.start zetaFile)) xiFile _ [] (by simp only [Op.run]; rw [if_neg ne]; simp) (hops xiFile)
    rw [split, h1] at this
    exact this
  · have := after_puts (Op.run (Op.run fs (.start xiFile)) (.start zetaFile)) zetaFile _ [] (by simp [Op.run]) (hops zetaFile)
    rw [split, h2] at this
    exact this

/-- **C97.** The files `xi.dat` and `zeta.dat` contain the coefficients that are returned, one for every site up to `Nmax`. -/
theorem chain_written (h : fromParams W fs p m s = (ops, .ok c)) (hq : setParameters W { reset s with params := p } = .ok q) (hc : Chain m q) :
    c.xi.length = q.Nmax + 1 ∧ c.zeta.length = q.Nmax + 1 ∧
      after fs ops "xi.dat".toList = some (fileOf W c.xi) ∧ after fs ops "zeta.dat".toList = some (fileOf W c.zeta) := by
  obtain ⟨t, ht, rfl⟩ := call_run h
  obtain ⟨q', r, o1, o2, h1, h2, h3, h4, h5, -⟩ := run_stages ht
  rw [hq] at h1
  cases h1
  rw [if_pos (h3.mpr hc)] at h5
  obtain ⟨b, -, -, u, xi, zeta, -, -, -, hx, hz⟩ := tridiag_chain h2 (by rw [h5])
  refine ⟨by rw [hx]; simp, by rw [hz]; simp, ?_⟩
  obtain ⟨vx, vz, hlen, ho, hr⟩ := tridiag_spec W r
  rw [h5] at ho hr
  dsimp only at ho hr
  rcases hr with ⟨-, hr⟩ | ⟨e, hr, -⟩
  · cases hr
    subst h4 ho
    have := after_chain (W := W) (after fs o1) vx vz hlen [] (by simp)
    rw [List.append_nil] at this
    rw [after_append]
    refine ⟨this.1.trans (by simp [texts, State.channel]), this.2.trans (by simp [texts, State.channel])⟩
  · cases hr

theorem save_files (W : World) (t : State) : ∀ o ∈ saveTables W t, o.file = dePFile ∨ o.file = deNFile ∨ o.file = duPFile ∨ o.file = duNFile := by
  intro o ho
  simp only [saveTables, saveTable, List.mem_append, List.mem_cons, List.not_mem_nil, or_false] at ho
  rcases ho with (((rfl | rfl) | (rfl | rfl)) | (rfl | rfl)) | (rfl | rfl) <;> simp [Op.file]

theorem theta_written (fs : FS) (W : World) (x : ℝ) : after fs (thetaOps W x) thetaFile = some (fileOf W [x]) := by
  simp [after, thetaOps, Op.run, fileOf]

theorem tridiag_files (W : World) (t : State) : ∀ o ∈ (tridiag W t).1, o.file = xiFile ∨ o.file = zetaFile := by
  obtain ⟨vx, vz, -, ho, -⟩ := tridiag_spec W t
  rw [ho]
  intro o h
  rcases List.mem_cons.mp h with rfl | h
  · exact Or.inl rfl
  rcases List.mem_cons.mp h with rfl | h
  · exact Or.inr rfl
  · exact (pass_files _ o h).1

/-- **C97.** The star: the hybridisation strength is the integral of the hybridisation function over the mesh, the coupling of each level squared is
the share of its interval, and its energy is the one prescribed; the chain is the tridiagonal form of this star. -/
theorem calculated_chain (h : fromParams W fs p m s = (ops, .ok c)) (hq : setParameters W { reset s with params := p } = .ok q) (hl : Calculates m q) :
    ∃ ρp ρn εp εn Ep En : ℝ → ℝ, IsBand W fs q true ρp ∧ IsBand W fs q false ρn ∧ IsMesh W fs q "GSOL.dat".toList εp ∧ IsMesh W fs q "GSOLNEG.dat".toList εn ∧
      IsEnergy W fs q "FSOL.dat".toList Ep ∧ IsEnergy W fs q "FSOLNEG.dat".toList En ∧
      c.theta = (∫ w in (εp (q.z + q.mMAX + 2))..(εp (q.z + 1)), ρp w) + ∫ w in (εn (q.z + q.mMAX + 2))..(εn (q.z + 1)), ρn w ∧
      after fs ops "theta.dat".toList = some (fileOf W [c.theta]) ∧
      (Chain m q → 0 < c.theta ∧ ∃ b : Bath, b.M = q.mMAX ∧ (∀ k ≤ q.mMAX,
        b.ep k = Ep (q.z + k + 1) ∧ b.em k = En (q.z + k + 1) ∧ 0 ≤ b.u0.p k ∧ 0 ≤ b.u0.m k ∧
        b.u0.p k * b.u0.p k * c.theta = ∫ w in (εp (q.z + k + 2))..(εp (q.z + k + 1)), ρp w ∧
        b.u0.m k * b.u0.m k * c.theta = ∫ w in (εn (q.z + k + 2))..(εn (q.z + k + 1)), ρn w) ∧ IsChain q b c) := by
  obtain ⟨t, ht, rfl⟩ := call_run h
  obtain ⟨q', r, o1, o2, h1, h2, h3, h4, h5, h6⟩ := run_stages ht
  have hL : 1 < q.Lambda := by
    obtain ⟨L, z, a, b, r, x, N, M, c, bd, sv, ld, tr, rfl, k, -⟩ := setParameters_form hq
    exact k
  rw [hq] at h1
  cases h1
  rcases h6 with ⟨-, i, hi, rfl, ho1⟩ | ⟨h6, -⟩
  swap
  · exact absurd hl h6
  obtain ⟨hsi, -, -⟩ := same_input hi
  have hm := same_mode m q
  have hsame : Same q i := hm.trans hsi
  have lr : ∀ pos, loadRho W fs (applyMode m q) pos = loadRho W fs q pos := by
    intro pos; unfold loadRho; rw [hm.params, hm.bandrescale]
  obtain ⟨tp, htp⟩ := hi.intP
  obtain ⟨tn, htn⟩ := hi.intN
  have bp : IsBand W fs q true (interpFn i.rhoP) := isBand (i := i) hi.goodP (fun h => (hi.flat (by rw [hm.band]; exact h)).1)
    (fun h => by rw [← lr]; exact (hi.read (by rw [hm.band]; exact h)).1)
  have bn : IsBand W fs q false (interpFn i.rhoN) := isBand (i := i) hi.goodN (fun h => (hi.flat (by rw [hm.band]; exact h)).2.1)
    (fun h => by rw [← lr]; exact (hi.read (by rw [hm.band]; exact h)).2.1)
  refine ⟨interpFn i.rhoP, interpFn i.rhoN, epsMesh i.Lambda (gAt i i.gP), epsMesh i.Lambda (gAt i i.gN), energyAt i i.fP, energyAt i i.fN, bp, bn,
    isMesh hsame fun h1 h2 => ⟨(hi.readG (by rw [hm.band]; exact h1) (by rw [hm.adapt]; exact h2)).1, (hi.readG (by rw [hm.band]; exact h1) (by rw [hm.adapt]; exact h2)).2.2.1⟩,
    isMesh hsame fun h1 h2 => ⟨(hi.readG (by rw [hm.band]; exact h1) (by rw [hm.adapt]; exact h2)).2.1, (hi.readG (by rw [hm.band]; exact h1) (by rw [hm.adapt]; exact h2)).2.2.2⟩,
    isEnergy hL hsame fun h => ⟨(hi.read (by rw [hm.band]; exact h)).2.2.1, (hi.read (by rw [hm.band]; exact h)).2.2.2.2.1⟩,
    isEnergy hL hsame fun h => ⟨(hi.read (by rw [hm.band]; exact h)).2.2.2.1, (hi.read (by rw [hm.band]; exact h)).2.2.2.2.2⟩, ?_⟩
  have hth : t.theta = (star i).theta := by
    by_cases htr : (withTables i).tri = true
    · rw [if_pos htr] at h5
      obtain ⟨b, -, k, -⟩ := tridiag_chain (same_withTables i) (by rw [h5])
      exact k
    · rw [if_neg htr] at h5
      cases h5
      rfl
  have hst : (star i).theta = (intFn i.rhoP i.intP (epsMesh i.Lambda (gAt i i.gP) (i.z + 1)) - intFn i.rhoP i.intP (epsMesh i.Lambda (gAt i i.gP) (i.z + i.mMAX + 2))) +
    (intFn i.rhoN i.intN (epsMesh i.Lambda (gAt i i.gN) (i.z + 1)) - intFn i.rhoN i.intN (epsMesh i.Lambda (gAt i i.gN) (i.z + i.mMAX + 2))) := rfl
  have hdf : ∀ k, (star i).df k = (intFn i.rhoP i.intP (epsMesh i.Lambda (gAt i i.gP) (i.z + k + 1)) - intFn i.rhoP i.intP (epsMesh i.Lambda (gAt i i.gP) (i.z + k + 2)),
    intFn i.rhoN i.intN (epsMesh i.Lambda (gAt i i.gN) (i.z + k + 1)) - intFn i.rhoN i.intN (epsMesh i.Lambda (gAt i i.gN) (i.z + k + 2))) := fun k => rfl
  refine ⟨?_, ?_, fun hc => ?_⟩
  · change t.theta = _
    rw [hth, hst, intFn_sub hi.goodP htp, intFn_sub hi.goodN htn, hsame.z, hsame.mMAX]
  · change _ = some (fileOf W [t.theta])
    rw [h4, after_append, after_other]
    · rw [ho1, after_append, after_other]
      · rw [hth]
        exact theta_written fs W _
      · intro o ho
        split at ho
        · rcases save_files W _ o ho with h | h | h | h <;> rw [h] <;> decide
        · simp at ho
    · intro o ho
      have ho2 : o2 = (if (withTables i).tri then tridiag W (withTables i) else ([], .ok (withTables i))).1 := by rw [h5]
      rw [ho2] at ho
      split at ho
      · rcases tridiag_files W _ o ho with h | h <;> rw [h] <;> decide
      · simp at ho
  · rw [if_pos (h3.mpr hc)] at h5
    obtain ⟨b, hb, -, hch⟩ := tridiag_chain h2 (by rw [h5])
    obtain ⟨hM, hent⟩ := bathOf_ok hb
    have hM' : (withTables i).mMAX = q.mMAX := h2.mMAX
    have hiM : i.mMAX = q.mMAX := hsame.mMAX
    rw [hM'] at hM hent
    have get : ∀ (f : ℕ → Option ℝ) k, k ≤ q.mMAX → ((List.range (i.mMAX + 1)).map f)[k]? = some (f k) := by
      intro f k hk
      rw [List.getElem?_map, List.getElem?_range (by omega)]
      rfl
    have ent : ∀ k ≤ q.mMAX, energyAt i i.fP (i.z + k + 1) = b.ep k ∧ energyAt i i.fN (i.z + k + 1) = b.em k ∧
        ((star i).du k).1 = some (b.u0.p k) ∧ ((star i).du k).2 = some (b.u0.m k) := by
      intro k hk
      obtain ⟨e1, e2, e3, e4⟩ := hent k hk
      simp only [withTables] at e1 e2 e3 e4
      rw [get _ k hk] at e1 e2 e3 e4
      exact ⟨Option.some.inj (Option.some.inj e1), Option.some.inj (Option.some.inj e2), Option.some.inj e3, Option.some.inj e4⟩
    obtain ⟨hpos, hnn⟩ := du_number _ _ _ _ i.z i.mMAX 0 (Nat.zero_le _) _ (Or.inl (ent 0 (Nat.zero_le _)).2.2.1)
    obtain ⟨up, un, hu, -, -⟩ := star_normalised _ _ _ _ i.z i.mMAX hpos hnn
    refine ⟨by change 0 < t.theta; rw [hth]; exact hpos, b, hM, fun k hk => ?_, hch⟩
    obtain ⟨e1, e2, e3, e4⟩ := ent k hk
    obtain ⟨u1, u2, u3, u4, u5⟩ := hu k (by omega)
    have v1 : up k = b.u0.p k := by
      have := (Prod.mk.inj ((Prod.ext rfl rfl : (star i).du k = (((star i).du k).1, ((star i).du k).2)).symm.trans u1)).1
      rw [e3] at this
      exact (Option.some.inj this).symm
    have v2 : un k = b.u0.m k := by
      have := (Prod.mk.inj ((Prod.ext rfl rfl : (star i).du k = (((star i).du k).1, ((star i).du k).2)).symm.trans u1)).2
      rw [e4] at this
      exact (Option.some.inj this).symm
    rw [v1] at u2 u4
    rw [v2] at u3 u5
    refine ⟨by rw [← e1, hsame.z], by rw [← e2, hsame.z], u2, u3, ?_, ?_⟩
    · change _ * t.theta = _
      have u4' : b.u0.p k * b.u0.p k * (star i).theta = ((star i).df k).1 := u4
      rw [hth, u4', ← hsame.z, ← intFn_sub hi.goodP htp, hdf k]
    · change _ * t.theta = _
      have u5' : b.u0.m k * b.u0.m k * (star i).theta = ((star i).df k).2 := u5
      rw [hth, u5', ← hsame.z, ← intFn_sub hi.goodN htn, hdf k]

end Verif.NrgChain
