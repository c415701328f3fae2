import Verif.Sweep.Props
import Verif.Subspaces.Lemmas
/-!
# C101: continuing a calculation from stored spectra

Both statements are negative: the spectra that a step leaves in its file have
their eigenvectors in the blocks only, and whatever splits them into blocks again
reads a matrix without elements.
-/

namespace Verif.Sweep
open Verif.Invar Verif.Store Verif.Subspaces
variable {K : Type}

/-- A spectrum whose eigenvectors are only in the blocks. -/
def Bare (str : Struct) (p : Label × Eig K) : Prop :=
  p.2.m = noMatrix ∧ 0 < nrstored p.2 ∧ nrstored p.2 ≤ p.2.dim ∧ ∃ ds, str.lookup p.1 = some ds ∧ ds.sum = p.2.dim

theorem pos_of_sum (ds : List Nat) (h : 0 < ds.sum) : ∃ i, ∃ hi : i < ds.length, 0 < ds[i] := by
  induction ds with
  | nil => simp at h
  | cons a l ih =>
    by_cases ha : 0 < a
    · exact ⟨0, by simp, by simpa using ha⟩
    · obtain ⟨i, hi, h1⟩ := ih (by simp at h; omega)
      exact ⟨i + 1, by simpa using hi, by simpa using h1⟩

theorem subBlocks_noMatrix (nr : Nat) (ds : Dims) (hn : 0 < nr) (hd : 0 < ds.sum) :
    subBlocks (noMatrix : Mat K) nr ds = .error .undefined := by
  unfold subBlocks
  refine mapM_error _ _ _ ?_ ?_
  · intro i hi
    rw [part_eq (List.mem_range.1 hi)]
    dsimp only
    unfold subBlock
    split
    · exact Or.inl ⟨_, rfl⟩
    · right
      rw [if_neg]
      simp [noMatrix]
      omega
  · obtain ⟨i, hi, h⟩ := pos_of_sum ds hd
    refine ⟨i, List.mem_range.2 hi, ?_⟩
    rw [part_eq hi]
    dsimp only
    unfold subBlock
    rw [if_neg (by rw [take_succ_sum hi]; omega), if_neg]
    simp [noMatrix]
    omega

theorem split_bare (str : Struct) (disc : Bool) (d : Diag K) (hd : d ≠ []) (h : ∀ p ∈ d, Bare str p) :
    split str disc d = .error .undefined := by
  cases d with
  | nil => exact absurd rfl hd
  | cons p d =>
    obtain ⟨h1, h2, h3, ds, h4, h5⟩ := h p (by simp)
    unfold split
    rw [mapM_ok_cons]
    have : splitOne str disc p = .error .undefined := by
      unfold splitOne
      rw [h4]
      dsimp only
      unfold splitEig
      rw [if_pos ⟨h2, h3⟩, h1, subBlocks_noMatrix _ _ h2 (by omega)]
    rw [this]

variable [Field K] [LinearOrder K] {Ch E Key : Type}

/-- **C101.** Resuming a calculation does not work: if the spectra of the first
step are those in the file written by a finished first step of the same
calculation, the resumed run reads elements of a matrix without elements. -/
theorem resume_undefined (V : Env K Ch E Key) (P : Par K) (fuel fuel' k : Nat) (i : Seed K Ch E Key)
    (files files' : Nat → Option (List (Tok K))) (s : St K Ch E Key)
    (hV : SolveOK V) (hf : P.floquet = false) (hdm : P.dm = true) (hr : P.lastStored = none)
    (hN : P.Ninit < P.Nmax) (hk : P.Ninit ≤ k)
    (h1 : step V P fuel .nrg P.Ninit (start i files) = .ok s) (hF : files' P.Ninit = s.files P.Ninit) :
    first V { P with lastStored := some k } (fuel' + 1) i files' = .error .undefined := by
  obtain ⟨str, egs, d0, d1, d2, ops1, ops2, hS⟩ := step_ok h1
  obtain ⟨hK, hfile⟩ := first_step_kept hV hf hdm (by unfold resumed; rw [hr]) hS
  have hF' : files' P.Ninit = some (saveDiag d1) := by rw [hF, hfile]; simp [upd]
  have hstr := hS.hstr
  set P' : Par K := { P with lastStored := some k } with hP'
  obtain ⟨q, hq, hqr⟩ := hK.again d1 rfl rfl
  have hat : ∀ ratio, attempt V P' .nrg P'.Ninit str (start i files') ratio = .ok (egs, d1, q) := by
    intro ratio
    rw [attempt_plain V P' .nrg _ str _ ratio hf]
    unfold getDiag
    dsimp only
    rw [if_pos (by simp [resumed, hP', hk])]
    have : loadFile P' (start i files').files P'.Ninit = .ok d1 := hK.load files' hF'
    rw [this]
    exact hq
  have hdd : doDiag V P' .nrg P'.Ninit str (start i files') (fuel' + 1) (ratio0 P' P'.Ninit) = .ok (egs, d1) := by
    unfold doDiag
    rw [hat]
    dsimp only
    rw [if_neg]
    intro hc
    simp only [Bool.and_eq_true] at hc
    have := hqr hc.1
    rw [show P'.restart = P.restart from rfl, this] at hc
    simp at hc
  have hst : step V P' (fuel' + 1) .nrg P'.Ninit (start i files') = .error .undefined := by
    unfold step
    have : Symm.substruct V.sym (sizes (start i files').diag) = some str := hstr
    rw [this]
    dsimp only [bind, Except.bind]
    rw [hdd]
    dsimp only
    unfold finish1
    dsimp only
    rw [split_bare str true d1 hK.some hK.bare]
  unfold first
  obtain ⟨n, hn⟩ : ∃ n, P'.Nmax - P'.Ninit = n + 1 := ⟨P.Nmax - P.Ninit - 1, by
    show P.Nmax - P.Ninit = _
    omega⟩
  rw [hn]
  unfold loop
  rw [hst]

theorem loop_same {V : Env K Ch E Key} {P P' : Par K} {fuel : Nat} {sw : Sweep} (n N : Nat) (s : St K Ch E Key)
    (h : ∀ m, N ≤ m → ∀ s, step V P' fuel sw m s = step V P fuel sw m s) :
    loop V P' fuel sw N n s = loop V P fuel sw N n s := by
  induction n generalizing N s with
  | zero => rfl
  | succ n ih =>
    unfold loop
    rw [h N le_rfl]
    cases step V P fuel sw N s with
    | error x => rfl
    | ok s' => exact ih (N + 1) s' fun m hm => h m (by omega)

/-- **C101.** What holds instead: with no stored step at or after the first one,
the run does not depend on the request to resume. -/
theorem resume_nothing_partial (V : Env K Ch E Key) (P : Par K) (fuel k : Nat) (i : Seed K Ch E Key)
    (files : Nat → Option (List (Tok K))) (hk : k < P.Ninit) :
    first V { P with lastStored := some k } fuel i files = first V { P with lastStored := none } fuel i files := by
  have hres : ∀ m, P.Ninit ≤ m → resumed { P with lastStored := some k } m = resumed { P with lastStored := none } m := by
    intro m hm
    simp [resumed]
    omega
  have hst : ∀ m, P.Ninit ≤ m → ∀ s : St K Ch E Key, step V { P with lastStored := some k } fuel .nrg m s
      = step V { P with lastStored := none } fuel .nrg m s := by
    intro m hm s
    have hg : ∀ r, getDiag V { P with lastStored := some k } .nrg m s r
        = getDiag V { P with lastStored := none } .nrg m s r := by
      intro r
      unfold getDiag
      dsimp only
      rw [hres m hm]
      rfl
    have hat : ∀ str r, attempt V { P with lastStored := some k } .nrg m str s r
        = attempt V { P with lastStored := none } .nrg m str s r := by
      intro str r
      unfold attempt
      rw [hg]
    have hdd : ∀ str f r, doDiag V { P with lastStored := some k } .nrg m str s f r
        = doDiag V { P with lastStored := none } .nrg m str s f r := by
      intro str f
      induction f with
      | zero => intro r; rfl
      | succ f ih =>
        intro r
        unfold doDiag
        rw [hat]
        simp only [ih]
    have hfin : ∀ str egs d, finish1 { P with lastStored := some k } .nrg m str s egs d
        = finish1 { P with lastStored := none } .nrg m str s egs d := by
      intro str egs d
      unfold finish1
      dsimp only
      rw [hres m hm]
    unfold step
    simp only [hdd, hfin]
    rfl
  unfold first
  rw [loop_same _ _ _ hst]

/-! ### Floquet -/

theorem zip_keeps {α β γ : Type} (φ : α → γ) (g : α × β → α) (h : ∀ p q, φ (g (p, q)) = φ p) (d : List α) (cs : List β)
    (hl : cs.length = d.length) : ((d.zip cs).map g).map φ = d.map φ := by
  induction d generalizing cs with
  | nil => rfl
  | cons p d ih =>
    cases cs with
    | nil => simp at hl
    | cons q cs =>
      simp only [List.zip_cons_cons, List.map_cons]
      rw [h, ih cs (by simpa using hl)]

/-- What the preparation of a spectrum leaves as it is. -/
def frame2 (p : Label × Eig K) : Label × List K × K × Nat × Int × Mat K :=
  (p.1, p.2.values.v, p.2.values.cShift, p.2.dim, p.2.nrstored, p.2.m)

theorem fixSplit_frame2 {b : Bool} {eps : K} {d d' : Diag K} (h : fixSplit b eps d = .ok d') :
    d'.map frame2 = d.map frame2 := by
  unfold fixSplit at h
  split at h
  · cases h
  · rename_i cs hcs
    cases h
    have := fixSplittings_length eps _ cs hcs
    exact zip_keeps frame2 (setCorr b) (fun _ _ => rfl) d cs (by simpa using this)

theorem prepare_frame2 {s : Trunc.Settings K} {la : Bool} {d : Diag K} {r : Diag K × Bool} (h : prepare s la d = .ok r) :
    r.1.map frame2 = d.map frame2 := by
  unfold prepare at h
  split at h
  · cases h
  · rename_i q hq
    cases h
    have := truncatePrepare_length s la _ q hq
    exact zip_keeps frame2 (fun p : (Label × Eig K) × Nat => (p.1.1, { p.1.2 with nrpost := (p.2 : Int) }))
      (fun _ _ => rfl) d q.nrkept (by simpa using this)

theorem splitFalse_frame2 {str : Struct} {d d' : Diag K} (h : split str false d = .ok d') :
    d'.map frame2 = d.map frame2 := by
  refine mapM_keeps _ frame2 frame2 ?_ d d' h
  intro p q hq
  obtain ⟨ds, _, h2, h3⟩ := splitOne_ok hq
  obtain ⟨_, _, bs, _, h4⟩ := splitEig_ok h2
  obtain ⟨q1, q2⟩ := q
  dsimp only at h3 h4
  subst h3 h4
  rfl

theorem attempt_floquet {V : Env K Ch E Key} {P : Par K} {sw : Sweep} {N : Nat} {str : Struct} {s : St K Ch E Key}
    {ratio egs : K} {d0 : Diag K} {b : Bool} (hf : P.floquet = true)
    (h : attempt V P sw N str s ratio = .ok (egs, d0, b)) :
    ∃ d a c e f, getDiag V P sw N s ratio = .ok d ∧ fixSplit true P.fixeps (setShift 0 d) = .ok a ∧
      split str false a = .ok c ∧ V.floq N s.ops c = .ok (e, f) ∧
      prepare (P.trunc N) (lastAll P N) f = .ok (d0, b) := by
  unfold attempt at h
  cases hg : getDiag V P sw N s ratio with
  | error x => rw [hg] at h; cases h
  | ok d =>
    rw [hg] at h
    dsimp only [bind, Except.bind] at h
    unfold reference at h
    rw [hf] at h
    simp only [if_true] at h
    cases h1 : fixSplit true P.fixeps (setShift 0 d) with
    | error x => rw [h1] at h; cases h
    | ok a =>
      rw [h1] at h
      dsimp only at h
      cases h2 : split str false a with
      | error x => rw [h2] at h; cases h
      | ok c =>
        rw [h2] at h
        dsimp only at h
        cases h3 : V.floq N s.ops c with
        | error x => rw [h3] at h; cases h
        | ok ef =>
          rw [h3] at h
          dsimp only at h
          unfold lastAll
          cases h4 : prepare (P.trunc N) (decide (N + 1 = P.Nmax) && P.keepLast) ef.2 with
          | error x => rw [h4] at h; cases h
          | ok r =>
            rw [h4] at h
            cases h
            exact ⟨d, a, c, ef.1, ef.2, rfl, h1, h2, h3, h4⟩

/-- A computed step of the first sweep with Floquet: the spectra in its file. -/
theorem floquet_file {V : Env K Ch E Key} {P : Par K} {fuel N : Nat} {a a1 : St K Ch E Key} {str : Struct} {egs : K}
    {d0 d1 d2 : Diag K} {ops1 ops2 : List (Key × E)} (hV : SolveOK V) (hFl : FloqOK V) (hf : P.floquet = true)
    (hdm : P.dm = true) (hr : resumed P N = false) (h : StepData V P fuel .nrg N a a1 str egs d0 d1 d2 ops1 ops2) :
    a1.files = upd a.files N (some (saveDiag d1)) ∧ Sorted d1 ∧ d1 ≠ [] ∧
    ∀ p ∈ d1, p.2.WF ∧ p.2.values.cShift = P.nan ∧ p.2.values.v ≠ [] ∧ Bare str p := by
  obtain ⟨r, b, ha, _⟩ := doDiag_ok h.hdiag
  obtain ⟨d, x, y, e, f, g1, g2, g3, g4, g5⟩ := attempt_floquet hf ha
  have hg : getDiag V P .nrg N a r
      = .ok ((V.solve N a.chain a.diag r).map fun p => (p.1, ofRaw P.nan (decide (N + 1 = P.Nmax)) p.2)) := by
    unfold getDiag
    dsimp only
    rw [hr]
    rfl
  rw [hg] at g1
  have g1 := Except.ok.inj g1
  obtain ⟨hsort, hcols⟩ := hV N a.chain a.diag r str h.hstr
  generalize V.solve N a.chain a.diag r = raw at g1 hsort hcols
  clear hg ha
  -- what is the same as in the result of the eigensolver
  have e1 : y.map frame2 = raw.map fun p => (p.1, p.2.val, P.nan, p.2.vec.cols, -1, p.2.vec) := by
    rw [splitFalse_frame2 g3, fixSplit_frame2 g2, ← g1]
    unfold setShift
    rw [List.map_map, List.map_map]
    rfl
  obtain ⟨e2, hwf⟩ := hFl _ _ _ _ _ g4
  have e3 := prepare_frame2 g5
  dsimp only at e3
  have hy : ∀ p ∈ y, p.2.m.WF := by
    intro p hp
    have : frame2 p ∈ raw.map fun p => (p.1, p.2.val, P.nan, p.2.vec.cols, (-1 : Int), p.2.vec) := by
      rw [← e1]; exact List.mem_map.2 ⟨p, hp, rfl⟩
    obtain ⟨q, hq, he⟩ := List.mem_map.1 this
    simp only [frame2, Prod.mk.injEq] at he
    rw [← he.2.2.2.2.2]
    exact (hcols q hq).1
  have hfw := hwf hy
  have e4 : d0.map (fun p => (p.1, p.2.values.v.length, p.2.values.cShift, p.2.dim, p.2.nrstored))
      = raw.map fun p => (p.1, p.2.val.length, P.nan, p.2.vec.cols, -1) := by
    have h1 := congrArg (List.map fun x : Label × List K × K × Nat × Int × Mat K =>
      (x.1, x.2.1.length, x.2.2.1, x.2.2.2.1, x.2.2.2.2.1)) e3
    have h2 := congrArg (List.map fun x : Label × List K × K × Nat × Int × Mat K =>
      (x.1, x.2.1.length, x.2.2.1, x.2.2.2.1, x.2.2.2.2.1)) e1
    rw [List.map_map, List.map_map] at h1 h2
    exact (h1.trans e2).trans h2
  have hd0 : ∀ p ∈ d0, p.2.m.WF ∧ p.2.values.cShift = P.nan ∧ p.2.nrstored = -1 ∧
      ∃ ds, str.lookup p.1 = some ds ∧ ds.sum = p.2.dim := by
    intro p hp
    have hm : (p.1, p.2.values.v.length, p.2.values.cShift, p.2.dim, p.2.nrstored) ∈
        raw.map fun p => (p.1, p.2.val.length, P.nan, p.2.vec.cols, (-1 : Int)) := by
      rw [← e4]; exact List.mem_map.2 ⟨p, hp, rfl⟩
    obtain ⟨q, hq, he⟩ := List.mem_map.1 hm
    simp only [Prod.mk.injEq] at he
    obtain ⟨_, ds, hds, hsum⟩ := hcols q hq
    have hm2 : frame2 p ∈ f.map frame2 := by rw [← e3]; exact List.mem_map.2 ⟨p, hp, rfl⟩
    obtain ⟨q', hq', he'⟩ := List.mem_map.1 hm2
    simp only [frame2, Prod.mk.injEq] at he'
    refine ⟨by rw [← he'.2.2.2.2.2]; exact hfw q' hq', he.2.2.1.symm, he.2.2.2.2.symm, ds, by rw [← he.1]; exact hds,
      by rw [hsum]; exact he.2.2.2.1⟩
  have hne : d0 ≠ [] := by
    intro h0
    have : raw = [] := by
      have := congrArg List.length e4
      rw [h0] at this
      simp at this
      exact List.length_eq_zero_iff.1 this.symm
    rw [this] at g1
    rw [← g1] at g2
    simp [fixSplit, setShift, Trunc.fixSplittings, Trunc.clusterMap] at g2
  have hfin := h.hfin
  unfold finish1 at hfin
  dsimp only at hfin
  cases hsp : split str true d0 with
  | error x => rw [hsp] at hfin; cases hfin
  | ok d1' =>
    rw [hsp] at hfin
    dsimp only at hfin
    have hfin := Except.ok.inj hfin
    simp only [Prod.mk.injEq] at hfin
    obtain ⟨k1, _, k3⟩ := hfin
    rw [hdm, hr] at k3
    simp only [Bool.not_false, Bool.and_self, if_true] at k3
    have hfr := split_frame hsp
    have hall : ∀ q ∈ d1', q.2.WF ∧ q.2.values.cShift = P.nan ∧ q.2.values.v ≠ [] ∧ Bare str q := by
      refine mapM_all _ _ d0 d1' ?_ hsp
      intro p hp q hq
      obtain ⟨w1, w2, w3, ds, w4, w5⟩ := hd0 p hp
      obtain ⟨s1, s2⟩ := splitOne_wf w1 hq
      have hfq := splitOne_frame hq
      have hn := nrstored_of_frame hfq
      simp only [frame, Prod.mk.injEq] at hfq
      obtain ⟨f1, f2, f3, f4, f5, f6⟩ := hfq
      obtain ⟨_, _, t2, _⟩ := splitOne_ok hq
      obtain ⟨t3, t4, _⟩ := splitEig_ok t2
      refine ⟨s1, by rw [f2]; exact w2, ?_, s2, by rw [hn]; exact t3, by rw [hn, f3]; exact t4, ds, by rw [f1]; exact w4,
        by rw [f3]; exact w5⟩
      intro h0
      unfold nrstored at t3
      rw [w3, ← f2, h0] at t3
      simp at t3
    have hlab : d1.map Prod.fst = raw.map Prod.fst := by
      have h1 := congrArg (List.map Prod.fst) hfr
      have h2 := congrArg (List.map Prod.fst) e4
      rw [List.map_map, List.map_map] at h1 h2
      rw [← k1]
      unfold setMeta
      rw [List.map_map]
      exact h1.trans h2
    refine ⟨by rw [← k3, k1], sorted_of_keys raw d1 hlab hsort, ?_, ?_⟩
    · intro h0
      rw [h0] at hlab
      have h2 := congrArg List.length e4
      have h3 := congrArg List.length hlab
      simp at h2 h3
      exact hne (List.length_eq_zero_iff.1 (by omega))
    · intro p hp
      rw [← k1] at hp
      obtain ⟨q, hq, rfl⟩ := List.mem_map.1 hp
      exact hall q hq

/-- **C101.** With Floquet blocks a calculation that needs the second sweep
cannot be finished: the second sweep splits the spectra that it has read into
blocks again, and reads elements of a matrix without elements. -/
theorem floquet_second_undefined (V : Env K Ch E Key) (P : Par K) (fuel : Nat) (i : Seed K Ch E Key)
    (files : Nat → Option (List (Tok K))) (s : St K Ch E Key) (hV : SolveOK V) (hFl : FloqOK V)
    (hf : P.floquet = true) (hdm : P.dm = true) (hr : P.lastStored = none) (hN : P.Ninit < P.Nmax)
    (h1 : first V P fuel i files = .ok s) : second V P fuel i s = .error .undefined := by
  obtain ⟨a, ha, rfl⟩ := first_ok h1
  obtain ⟨n, hn⟩ : ∃ n, P.Nmax - P.Ninit = n + 1 := ⟨P.Nmax - P.Ninit - 1, by omega⟩
  unfold second
  rw [hn] at ha ⊢
  unfold loop at ha ⊢
  cases hsa : step V P fuel .nrg P.Ninit (start i files) with
  | error x => rw [hsa] at ha; cases ha
  | ok a1 =>
    rw [hsa] at ha
    dsimp only at ha
    have hF : a.files P.Ninit = a1.files P.Ninit := loop_files ha _ (by omega)
    obtain ⟨str, egs, d0, d1, d2, ops1, ops2, hS⟩ := step_ok hsa
    obtain ⟨hfile, hso, hne, hall⟩ := floquet_file hV hFl hf hdm (by unfold resumed; rw [hr]) hS
    have hF' : a.files P.Ninit = some (saveDiag d1) := by rw [hF, hfile]; simp [upd]
    obtain ⟨f, hfu⟩ := second_fuel hS.hdiag
    have hst : ∀ t : St K Ch E Key, t.diag = i.diag → t.files = a.files →
        step V P fuel .dm P.Ninit t = .error .undefined := by
      intro t ht1 ht2
      have hl : loadFile P t.files P.Ninit = .ok d1 :=
        loadFile_saved P d1 hso (fun p hp => (hall p hp).1) (fun p hp => (hall p hp).2.1) _ _ (by rw [ht2]; exact hF')
      have hat : ∀ ratio, attempt V P .dm P.Ninit str t ratio = .error .undefined := by
        intro ratio
        unfold attempt getDiag
        dsimp only
        rw [hl]
        dsimp only [bind, Except.bind]
        unfold reference
        rw [hf]
        simp only [if_true]
        cases hx : fixSplit true P.fixeps (setShift 0 (setGS t.gs d1)) with
        | error x =>
          exfalso
          obtain ⟨p, d1', rfl⟩ := List.exists_cons_of_ne_nil hne
          have hv := (hall p (by simp)).2.2.1
          obtain ⟨v, vs, hvs⟩ := List.exists_cons_of_ne_nil hv
          unfold fixSplit Trunc.fixSplittings Trunc.clusterMap at hx
          have hnn : ((setShift 0 (setGS t.gs (p :: d1'))).map
              (fun p => p.2.values.v.map (· - p.2.values.shift))).flatten ≠ [] := by
            simp [setShift, setGS, hvs]
          generalize ((setShift 0 (setGS t.gs (p :: d1'))).map
              (fun p => p.2.values.v.map (· - p.2.values.shift))).flatten = l at hx hnn
          cases hl : l.insertionSort (· ≤ ·) with
          | nil =>
            have := (List.perm_insertionSort (· ≤ ·) l).length_eq
            rw [hl] at this
            exact hnn (List.length_eq_zero_iff.1 this.symm)
          | cons y ys => rw [hl] at hx; cases hx
        | ok x =>
          dsimp only
          have hfr : x.map frame2 = d1.map frame2 := by
            rw [fixSplit_frame2 hx]
            unfold setShift setGS
            rw [List.map_map, List.map_map]
            rfl
          have hbx : split str false x = .error .undefined := by
            refine split_bare str false x ?_ ?_
            · intro h0
              rw [h0] at hfr
              have := congrArg List.length hfr
              simp at this
              exact hne (List.length_eq_zero_iff.1 this.symm)
            · intro p hp
              have hm : frame2 p ∈ d1.map frame2 := by rw [← hfr]; exact List.mem_map.2 ⟨p, hp, rfl⟩
              obtain ⟨q, hq, he⟩ := List.mem_map.1 hm
              obtain ⟨b1, b2, b3, ds, b4, b5⟩ := (hall q hq).2.2.2
              simp only [frame2, Prod.mk.injEq] at he
              obtain ⟨k1, k2, k3, k4, k5, k6⟩ := he
              have hn : nrstored p.2 = nrstored q.2 := by unfold nrstored; rw [k2, k5]
              exact ⟨by rw [← k6]; exact b1, by rw [hn]; exact b2, by rw [hn, ← k4]; exact b3, ds,
                by rw [← k1]; exact b4, by rw [← k4]; exact b5⟩
          rw [hbx]
      unfold step
      have : Symm.substruct V.sym (sizes t.diag) = some str := by rw [ht1]; exact hS.hstr
      rw [this]
      dsimp only [bind, Except.bind]
      rw [hfu]
      unfold doDiag
      rw [hat]
    have := hst ⟨i.diag, i.chain, i.ops, a.total, a.total, a.files, fun n => (a.store n).map (refer a.total), a.back, []⟩
      rfl rfl
    dsimp only
    rw [this]

end Verif.Sweep
