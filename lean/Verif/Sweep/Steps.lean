import Verif.Sweep.Lemmas
import Verif.Subspaces.Lemmas
import Mathlib.Data.List.GetD
/-!
# Single steps of the two sweeps
-/

namespace Verif.Sweep
open Verif.Invar Verif.Store Verif.Subspaces

/-! ### Splitting into blocks and truncation -/

section split
variable {K : Type}

/-- Everything in a spectrum but the eigenvectors. -/
def frame (p : Label × Eig K) : Label × Values K × Nat × Int × Int × Bool :=
  (p.1, p.2.values, p.2.dim, p.2.nrpost, p.2.nrstored, p.2.last)

theorem splitEig_ok {ds : Dims} {disc : Bool} {e e' : Eig K} (h : splitEig ds disc e = .ok e') :
    0 < nrstored e ∧ nrstored e ≤ e.dim ∧ ∃ bs, subBlocks e.m (nrstored e) ds = .ok bs ∧
      e' = { e with blocks := bs, m := if disc then noMatrix else e.m } := by
  unfold splitEig at h
  split at h
  · rename_i hc
    cases hb : subBlocks e.m (nrstored e) ds with
    | error x => rw [hb] at h; cases h
    | ok bs => rw [hb] at h; cases h; exact ⟨hc.1, hc.2, bs, rfl, rfl⟩
  · cases h

theorem splitOne_ok {str : Struct} {disc : Bool} {p q : Label × Eig K} (h : splitOne str disc p = .ok q) :
    ∃ ds, str.lookup p.1 = some ds ∧ splitEig ds disc p.2 = .ok q.2 ∧ q.1 = p.1 := by
  unfold splitOne at h
  cases h1 : str.lookup p.1 with
  | none => rw [h1] at h; cases h
  | some ds =>
    rw [h1] at h
    dsimp only at h
    cases h2 : splitEig ds disc p.2 with
    | error x => rw [h2] at h; cases h
    | ok e => rw [h2] at h; cases h; exact ⟨ds, rfl, h2, rfl⟩

theorem splitOne_frame {str : Struct} {disc : Bool} {p q : Label × Eig K} (h : splitOne str disc p = .ok q) :
    frame q = frame p := by
  obtain ⟨ds, _, h2, h3⟩ := splitOne_ok h
  obtain ⟨_, _, bs, _, h4⟩ := splitEig_ok h2
  obtain ⟨q1, q2⟩ := q
  dsimp only at h3 h4
  subst h3 h4
  rfl

theorem split_frame {str : Struct} {disc : Bool} {d d' : Diag K} (h : split str disc d = .ok d') :
    d'.map frame = d.map frame := mapM_keeps _ frame frame (fun _ _ => splitOne_frame) d d' h

theorem frame_keys {d d' : Diag K} (h : d'.map frame = d.map frame) : keys d' = keys d := by
  have := congrArg (List.map fun x : Label × Values K × Nat × Int × Int × Bool => (x.2.1.v, x.2.2.1)) h
  rw [List.map_map, List.map_map] at this
  exact this

theorem frame_fields {d d' : Diag K} (h : d'.map frame = d.map frame) : d'.map fields = d.map fields := by
  have := congrArg (List.map fun x : Label × Values K × Nat × Int × Int × Bool =>
    (x.2.1.shift, x.2.1.corrected, x.2.1.c, x.2.2.2.1)) h
  rw [List.map_map, List.map_map] at this
  exact this

theorem subBlock_wf {m b : Mat K} {nr x y : Nat} (hm : m.WF) (h : subBlock m nr x y = .ok b) : b.WF := by
  unfold subBlock at h
  split at h
  · cases h
    exact ⟨by simp, by simp⟩
  · split at h
    · rename_i hc
      cases h
      refine ⟨by simp [hm.1, hc.1], ?_⟩
      intro r hr
      obtain ⟨r', hr', rfl⟩ := List.mem_map.1 hr
      have := hm.2 r' (List.mem_of_mem_take hr')
      simp [this]
      omega
    · cases h

theorem splitOne_wf {str : Struct} {p q : Label × Eig K} (hp : p.2.m.WF) (h : splitOne str true p = .ok q) :
    q.2.WF ∧ q.2.m = noMatrix := by
  obtain ⟨ds, _, h2, _⟩ := splitOne_ok h
  obtain ⟨_, _, bs, hb, h4⟩ := splitEig_ok h2
  rw [h4]
  refine ⟨⟨⟨rfl, by simp [noMatrix]⟩, ?_⟩, rfl⟩
  refine mapM_all _ Mat.WF (List.range ds.length) bs ?_ hb
  intro i _ b hbi
  cases hpart : part ds i with
  | none => rw [hpart] at hbi; cases hbi
  | some q => rw [hpart] at hbi; exact subBlock_wf hp hbi

theorem truncOne_ok {p q : Label × Eig K} (h : truncOne p = .ok q) :
    ∃ bs, p.2.blocks.mapM (truncMat p.2.nrpost.toNat) = .ok bs ∧
      q = (p.1, { p.2 with nrstored := p.2.nrpost, blocks := bs }) := by
  unfold truncOne at h
  cases hb : p.2.blocks.mapM (truncMat p.2.nrpost.toNat) with
  | error x => rw [hb] at h; cases h
  | ok bs => rw [hb] at h; cases h; exact ⟨bs, rfl, rfl⟩

theorem truncatePerform_gs {d d' : Diag K} (gs : K) (h : truncatePerform d = .ok d') :
    truncatePerform (setGS gs d) = .ok (setGS gs d') := by
  refine mapM_map_comm truncOne _ ?_ d d' h
  intro a b hab
  obtain ⟨bs, hb, rfl⟩ := truncOne_ok hab
  unfold truncOne
  dsimp only
  rw [hb]

theorem view_gs (gs : K) (d : Diag K) : view (setGS gs d) = view d := by
  unfold view setGS
  rw [List.map_map]
  rfl

theorem sizes_gs (gs : K) (d : Diag K) : sizes (setGS gs d) = sizes d := by
  unfold sizes setGS
  rw [List.map_map]
  rfl

theorem sizes_clear (d : Diag K) : sizes (clear d) = sizes d := by
  unfold sizes clear
  rw [List.map_map]
  rfl

theorem backSubs_gs (str : Struct) (gs : K) (d : Diag K) : backSubs str (setGS gs d) = backSubs str d := by
  unfold backSubs setGS
  rw [List.map_map]
  rfl

theorem thermoSubs_gs (last : Bool) (gs : K) (d : Diag K) : thermoSubs last (setGS gs d) =
    (thermoSubs last d).map fun p => (p.1, { p.2 with values := { p.2.values with absGS := gs } }) := by
  unfold thermoSubs setGS
  rw [List.map_map, List.map_map]
  rfl

end split

section steps
variable {K : Type} [Field K] [LinearOrder K] {Ch E Key : Type}

/-- Whether the last step keeps all states. -/
def lastAll (P : Par K) (N : Nat) : Bool := decide (N + 1 = P.Nmax) && P.keepLast

theorem attempt_plain (V : Env K Ch E Key) (P : Par K) (sw : Sweep) (N : Nat) (str : Struct) (s : St K Ch E Key)
    (ratio : K) (hf : P.floquet = false) : attempt V P sw N str s ratio =
      match getDiag V P sw N s ratio with
      | .error x => .error x
      | .ok d => core P.fixeps (P.trunc N) (lastAll P N) d := by
  unfold attempt
  cases getDiag V P sw N s ratio with
  | error x => rfl
  | ok d =>
    dsimp only [bind, Except.bind]
    unfold reference core
    rw [hf]
    simp only [Bool.false_eq_true, if_false]
    cases findEgs d with
    | error x => rfl
    | ok e =>
      dsimp only
      cases fixSplit false P.fixeps (setShift e d) with
      | error x => rfl
      | ok d1 =>
        dsimp only [pure, Except.pure]
        unfold lastAll
        cases prepare (P.trunc N) (decide (N + 1 = P.Nmax) && P.keepLast) d1 with
        | error x => rfl
        | ok r => rfl

theorem doDiag_ok {V : Env K Ch E Key} {P : Par K} {sw : Sweep} {N : Nat} {str : Struct} {s : St K Ch E Key}
    {fuel : Nat} {ratio egs : K} {d : Diag K} (h : doDiag V P sw N str s fuel ratio = .ok (egs, d)) :
    ∃ r b, attempt V P sw N str s r = .ok (egs, d, b) ∧ (b = true → sw = .nrg → P.restart = false) := by
  induction fuel generalizing ratio with
  | zero => cases h
  | succ f ih =>
    unfold doDiag at h
    cases ha : attempt V P sw N str s ratio with
    | error x => rw [ha] at h; cases h
    | ok q =>
      rw [ha] at h
      obtain ⟨e, d', b⟩ := q
      dsimp only at h
      split at h
      · exact ih h
      · rename_i hb
        cases h
        refine ⟨ratio, b, ha, ?_⟩
        rintro rfl rfl
        simpa using hb

/-- A successful step, taken apart. -/
structure StepData (V : Env K Ch E Key) (P : Par K) (fuel : Nat) (sw : Sweep) (N : Nat) (s s' : St K Ch E Key)
    (str : Struct) (egs : K) (d0 d1 d2 : Diag K) (ops1 ops2 : List (Key × E)) : Prop where
  hstr : Symm.substruct V.sym (sizes s.diag) = some str
  hdiag : doDiag V P sw N str s fuel (ratio0 P N) = .ok (egs, d0)
  hfin : finish1 P sw N str s egs d0 = .ok (d1, s'.total, s'.files)
  hops1 : opsBefore V P sw N str d1 s.ops = .ok ops1
  hcut : truncatePerform d1 = .ok d2
  hchain : nextChain V P N str d2 s.chain = .ok s'.chain
  hops2 : opsAfter V P sw N str d2 ops1 = .ok ops2
  hout : s' = { diag := clear d2, chain := s'.chain, ops := ops2.map fun p => (p.1, V.trim (sizes d2) p.2),
                total := s'.total, gs := s.gs, files := s'.files
                store := upd s.store N (some (thermoSubs (decide (N + 1 = P.Nmax)) d2))
                back := upd s.back N (some (backSubs str d2))
                log := s.log ++ [⟨N, str, d1, d2, ops2, if recalcKept P sw then d2 else d1, s'.chain,
                  ops2.map fun p => (p.1, V.trim (sizes d2) p.2)⟩] }

theorem step_ok {V : Env K Ch E Key} {P : Par K} {fuel : Nat} {sw : Sweep} {N : Nat} {s s' : St K Ch E Key}
    (h : step V P fuel sw N s = .ok s') :
    ∃ str egs d0 d1 d2 ops1 ops2, StepData V P fuel sw N s s' str egs d0 d1 d2 ops1 ops2 := by
  unfold step at h
  cases h1 : Symm.substruct V.sym (sizes s.diag) with
  | none => rw [h1] at h; cases h
  | some str =>
    rw [h1] at h
    dsimp only [bind, Except.bind] at h
    cases h2 : doDiag V P sw N str s fuel (ratio0 P N) with
    | error x => rw [h2] at h; cases h
    | ok q =>
      obtain ⟨egs, d0⟩ := q
      rw [h2] at h
      dsimp only at h
      cases h3 : finish1 P sw N str s egs d0 with
      | error x => rw [h3] at h; cases h
      | ok q =>
        obtain ⟨d1, total, files⟩ := q
        rw [h3] at h
        dsimp only at h
        cases h4 : opsBefore V P sw N str d1 s.ops with
        | error x => rw [h4] at h; cases h
        | ok ops1 =>
          rw [h4] at h
          dsimp only at h
          cases h5 : truncatePerform d1 with
          | error x => rw [h5] at h; cases h
          | ok d2 =>
            rw [h5] at h
            dsimp only at h
            cases h6 : nextChain V P N str d2 s.chain with
            | error x => rw [h6] at h; cases h
            | ok chain =>
              rw [h6] at h
              dsimp only at h
              cases h7 : opsAfter V P sw N str d2 ops1 with
              | error x => rw [h7] at h; cases h
              | ok ops2 =>
                rw [h7] at h
                cases h
                exact ⟨str, egs, d0, d1, d2, ops1, ops2, ⟨h1, h2, h3, h4, h5, h6, h7, rfl⟩⟩

theorem ok_step {V : Env K Ch E Key} {P : Par K} {fuel : Nat} {sw : Sweep} {N : Nat} {s : St K Ch E Key}
    {str : Struct} {egs : K} {d0 d1 d2 : Diag K} {ops1 ops2 : List (Key × E)} {total : K} {chain : Ch}
    {files : Nat → Option (List (Tok K))}
    (h1 : Symm.substruct V.sym (sizes s.diag) = some str)
    (h2 : doDiag V P sw N str s fuel (ratio0 P N) = .ok (egs, d0))
    (h3 : finish1 P sw N str s egs d0 = .ok (d1, total, files))
    (h4 : opsBefore V P sw N str d1 s.ops = .ok ops1)
    (h5 : truncatePerform d1 = .ok d2)
    (h6 : nextChain V P N str d2 s.chain = .ok chain)
    (h7 : opsAfter V P sw N str d2 ops1 = .ok ops2) :
    ∃ s', step V P fuel sw N s = .ok s' := by
  unfold step
  rw [h1]
  dsimp only [bind, Except.bind]
  rw [h2]
  dsimp only
  rw [h3]
  dsimp only
  rw [h4]
  dsimp only
  rw [h5]
  dsimp only
  rw [h6]
  dsimp only
  rw [h7]
  exact ⟨_, rfl⟩

/-- The facts about a stored spectrum: its file reads back as it was, the
preparation of the second sweep does not change it, its eigenvectors are only in
the blocks. -/
structure Kept (V : Env K Ch E Key) (P : Par K) (N : Nat) (str : Struct) (egs : K) (d1 : Diag K) : Prop where
  load : ∀ files : Nat → Option (List (Tok K)), files N = some (saveDiag d1) → loadFile P files N = .ok d1
  again : ∀ d, keys d = keys d1 → d.map fields = d1.map fields →
    ∃ b, core P.fixeps (P.trunc N) (lastAll P N) d = .ok (egs, d, b) ∧ (b = true → P.restart = false)
  bare : ∀ p ∈ d1, p.2.m = noMatrix ∧ 0 < nrstored p.2 ∧ nrstored p.2 ≤ p.2.dim ∧
    ∃ ds, str.lookup p.1 = some ds ∧ ds.sum = p.2.dim
  some : d1 ≠ []

theorem loadFile_saved (P : Par K) (d1 : Diag K) (hs : Sorted d1) (hw : ∀ p ∈ d1, p.2.WF)
    (hn : ∀ p ∈ d1, p.2.values.cShift = P.nan) (files : Nat → Option (List (Tok K))) (N : Nat)
    (h : files N = some (saveDiag d1)) : loadFile P files N = .ok d1 := by
  unfold loadFile
  rw [h]
  dsimp only
  have := diag_roundtrip P.nan d1 hs hw []
  rw [List.append_nil] at this
  rw [this]
  dsimp only
  congr 1
  conv_rhs => rw [← List.map_id d1]
  refine List.map_congr_left ?_
  intro p hp
  unfold Eig.stored
  rw [← hn p hp]
  rfl

theorem sorted_of_keys {β γ : Type} (d : List (Label × β)) (d' : List (Label × γ))
    (h : d'.map Prod.fst = d.map Prod.fst) (hs : Sorted d) : Sorted d' := by
  have h1 : (d.map Prod.fst).Pairwise fun a b => Invar.lt a b = true := by
    rw [List.pairwise_map]; exact hs
  rw [← h, List.pairwise_map] at h1
  exact h1

theorem nrstored_of_frame {p q : Label × Eig K} (h : frame q = frame p) : nrstored q.2 = nrstored p.2 := by
  simp only [frame, Prod.mk.injEq] at h
  unfold nrstored
  rw [h.2.1, h.2.2.2.2.1]

theorem zipWith_raw (nan : K) (last : Bool) (raw : List (Label × Raw K)) (ql : List (K × List K × List K × Int))
    (hl : ql.length = raw.length) :
    (List.zipWith put (raw.map fun p => (p.1, ofRaw nan last p.2)) ql).map
      (fun p => (p.1, p.2.values.v, p.2.dim, p.2.m, p.2.values.cShift, p.2.nrstored))
      = raw.map fun p => (p.1, p.2.val, p.2.vec.cols, p.2.vec, nan, -1) := by
  induction raw generalizing ql with
  | nil => rfl
  | cons p raw ih =>
    cases ql with
    | nil => simp at hl
    | cons x ql =>
      simp only [List.map_cons, List.zipWith_cons_cons]
      rw [ih ql (by simpa using hl)]
      rfl

theorem mem_zip_setCorr {eps : K} {d d' : Diag K} (h : fixSplit false eps d = .ok d') :
    ∀ p ∈ d', p.2.values.c.length = p.2.values.v.length := by
  unfold fixSplit Trunc.fixSplittings at h
  cases hm : Trunc.clusterMap eps (d.map fun p => p.2.values.v.map (· - p.2.values.shift)).flatten with
  | none => rw [hm] at h; cases h
  | some m =>
    rw [hm] at h
    cases h
    intro p hp
    obtain ⟨q, hq, rfl⟩ := List.mem_map.1 hp
    rw [List.map_map, List.zip_map_right, List.mem_map] at hq
    obtain ⟨x, hx, rfl⟩ := hq
    have := List.of_mem_zip hx
    have he : x.1 = x.2 := by
      clear hp this
      generalize d = l at hx
      induction l with
      | nil => simp at hx
      | cons y l ih =>
        simp only [List.zip_cons_cons, List.mem_cons] at hx
        rcases hx with rfl | hx
        · rfl
        · exact ih hx
    obtain ⟨x1, x2⟩ := x
    dsimp only at he
    subst he
    simp [setCorr]

theorem keptCount_le (la : Bool) (c : K) (s : Trunc.Sub K) : Trunc.keptCount la c s ≤ s.crit.length := by
  unfold Trunc.keptCount
  split
  · exact le_rfl
  · exact List.countP_le_length

/-- The truncation does not keep more states than there are. -/
theorem core_post {eps : K} {s : Trunc.Settings K} {la : Bool} {d d' : Diag K} {e : K} {b : Bool}
    (h : core eps s la d = .ok (e, d', b)) :
    ∀ p ∈ d', 0 ≤ p.2.nrpost ∧ p.2.nrpost.toNat ≤ p.2.values.v.length := by
  unfold core at h
  split at h
  · cases h
  · split at h
    · cases h
    · rename_i d1 hd1
      split at h
      · cases h
      · rename_i r hr
        cases h
        unfold prepare Trunc.truncatePrepare at hr
        split at hr
        · cases hr
        · rename_i q hq
          split at hq
          · cases hq
          · split at hq
            · cases hq
            · cases hq
              cases hr
              have hc := mem_zip_setCorr hd1
              clear hd1
              generalize d1 = l at hc
              intro p hp
              unfold setPost at hp
              dsimp only at hp
              rw [List.map_map] at hp
              obtain ⟨x, hx, rfl⟩ := List.mem_map.1 hp
              rw [List.zip_map_right, List.mem_map] at hx
              obtain ⟨y, hy, rfl⟩ := hx
              have hyl := (List.of_mem_zip hy).1
              have he : y.1 = y.2 := by
                clear hp hc hyl
                induction l with
                | nil => simp at hy
                | cons z l ih =>
                  simp only [List.zip_cons_cons, List.mem_cons] at hy
                  rcases hy with rfl | hy
                  · rfl
                  · exact ih hy
              obtain ⟨y1, y2⟩ := y
              dsimp only at he hyl
              subst he
              have hcy := hc y1 hyl
              refine ⟨by simp, ?_⟩
              have := keptCount_le la ‹K› (⟨y1.2.values.c, y1.2.dim⟩ : Trunc.Sub K)
              simp only [Prod.map, id, Function.comp, Int.toNat_natCast]
              rw [← hcy]
              exact this

theorem subBlocks_spec {m : Mat K} {nr : Nat} {ds : Dims} {bs : List (Mat K)} (hm : m.WF)
    (h : subBlocks m nr ds = .ok bs) : bs.map Mat.cols = ds ∧ ∀ b ∈ bs, b.WF ∧ b.rows = nr := by
  unfold subBlocks at h
  have hone : ∀ i b, (match part ds i with
      | none => (.error .assertFailed : Except Err (Mat K))
      | some p => subBlock m nr p.1 p.2) = .ok b → b.cols = ds.getD i 0 ∧ b.WF ∧ b.rows = nr := by
    intro i b hb
    cases hp : part ds i with
    | none => rw [hp] at hb; cases hb
    | some q =>
      rw [hp] at hb
      dsimp only at hb
      obtain ⟨hi, e1, e2⟩ := part_some_iff.1 hp
      rw [e1, e2] at hb
      rw [take_succ_sum hi] at hb
      refine ⟨?_, subBlock_wf hm hb, ?_⟩
      · rw [List.getD_eq_getElem _ _ hi]
        unfold subBlock at hb
        split at hb
        · cases hb
          show 0 = _
          omega
        · split at hb
          · cases hb
            show _ - _ = _
            omega
          · cases hb
      · unfold subBlock at hb
        split at hb
        · cases hb; rfl
        · split at hb
          · cases hb; rfl
          · cases hb
  refine ⟨?_, mapM_all _ _ _ bs (fun i _ b hb => (hone i b hb).2) h⟩
  rw [mapM_keeps _ (fun i => ds.getD i 0) Mat.cols (fun i b hb => (hone i b hb).1) _ bs h]
  apply List.ext_getElem
  · simp
  · intro i h1 h2
    simp at h1 ⊢
    rw [List.getElem?_eq_getElem h1]
    rfl

/-- The spectra of a computed step in terms of their blocks. -/
theorem split_of_computed (V : Env K Ch E Key) (P : Par K) (N : Nat) (s : St K Ch E Key) (str : Struct)
    (r egs : K) (d0 d1' : Diag K) (b : Bool) (hV : SolveOK V)
    (hstr : Symm.substruct V.sym (sizes s.diag) = some str) (hr : resumed P N = false)
    (hf : P.floquet = false) (ha : attempt V P .nrg N str s r = .ok (egs, d0, b))
    (hsp : split str true d0 = .ok d1') : ∀ p ∈ d1', SplitOK str p := by
  rw [attempt_plain V P .nrg N str s r hf] at ha
  have hg : getDiag V P .nrg N s r
      = .ok ((V.solve N s.chain s.diag r).map fun p => (p.1, ofRaw P.nan (decide (N + 1 = P.Nmax)) p.2)) := by
    unfold getDiag
    dsimp only
    rw [hr]
    rfl
  rw [hg] at ha
  dsimp only at ha
  obtain ⟨_, hcols⟩ := hV N s.chain s.diag r str hstr
  generalize V.solve N s.chain s.diag r = raw at ha hcols
  clear hg
  have hpost := core_post ha
  rw [core_key] at ha
  cases hck : coreKey P.fixeps (P.trunc N) (lastAll P N)
      (keys (raw.map fun p => (p.1, ofRaw P.nan (decide (N + 1 = P.Nmax)) p.2))) with
  | error x => rw [hck] at ha; cases ha
  | ok q =>
    rw [hck] at ha
    have hl0 := coreKey_length _ _ _ _ q hck
    obtain ⟨qe, ql, qb⟩ := q
    have ha := Except.ok.inj ha
    simp only [Prod.mk.injEq] at ha
    obtain ⟨_, hd0, _⟩ := ha
    have hkeep := zipWith_raw P.nan (decide (N + 1 = P.Nmax)) raw ql (by simpa [keys] using hl0)
    rw [hd0] at hkeep
    refine mapM_all _ _ d0 d1' ?_ hsp
    intro p hp q hq
    have hm : (p.1, p.2.values.v, p.2.dim, p.2.m, p.2.values.cShift, p.2.nrstored) ∈
        raw.map fun p => (p.1, p.2.val, p.2.vec.cols, p.2.vec, P.nan, (-1 : Int)) := by
      rw [← hkeep]; exact List.mem_map.2 ⟨p, hp, rfl⟩
    obtain ⟨x, hx, he⟩ := List.mem_map.1 hm
    simp only [Prod.mk.injEq] at he
    obtain ⟨e1, e2, e3, e4, e5, e6⟩ := he
    have hn := nrstored_of_frame (splitOne_frame hq)
    have hfq := splitOne_frame hq
    simp only [frame, Prod.mk.injEq] at hfq
    obtain ⟨ds, hds, h2, h3⟩ := splitOne_ok hq
    obtain ⟨_, _, bs, hb, h4⟩ := splitEig_ok h2
    obtain ⟨s1, s2⟩ := subBlocks_spec (by rw [← e4]; exact (hcols x hx).1) hb
    obtain ⟨p1, p2⟩ := hpost p hp
    have hb' : q.2.blocks = bs := by rw [h4]
    refine ⟨⟨ds, by rw [h3]; exact hds, by rw [hb', s1]⟩, ?_, ?_⟩
    · rw [hb', hn]; exact s2
    · rw [hfq.2.2.2.1, hn]
      refine ⟨p1, ?_⟩
      unfold nrstored
      rw [← e6, if_pos rfl]
      exact p2

/-- The spectra of a computed step after splitting, with the energies filled in. -/
theorem kept_of_computed (V : Env K Ch E Key) (P : Par K) (N : Nat) (s : St K Ch E Key) (str : Struct)
    (r egs : K) (d0 d1' : Diag K) (b : Bool) (sc tot : K) (hV : SolveOK V)
    (hstr : Symm.substruct V.sym (sizes s.diag) = some str) (hr : resumed P N = false)
    (hf : P.floquet = false) (ha : attempt V P .nrg N str s r = .ok (egs, d0, b))
    (hb : b = true → P.restart = false) (hsp : split str true d0 = .ok d1') :
    Kept V P N str egs (setMeta sc tot d1') := by
  rw [attempt_plain V P .nrg N str s r hf] at ha
  have hg : getDiag V P .nrg N s r
      = .ok ((V.solve N s.chain s.diag r).map fun p => (p.1, ofRaw P.nan (decide (N + 1 = P.Nmax)) p.2)) := by
    unfold getDiag
    dsimp only
    rw [hr]
    rfl
  rw [hg] at ha
  dsimp only at ha
  obtain ⟨hsort, hcols⟩ := hV N s.chain s.diag r str hstr
  generalize V.solve N s.chain s.diag r = raw at ha hsort hcols
  clear hg
  -- the spectra after the preparation
  have hc := ha
  rw [core_key] at hc
  cases hck : coreKey P.fixeps (P.trunc N) (lastAll P N)
      (keys (raw.map fun p => (p.1, ofRaw P.nan (decide (N + 1 = P.Nmax)) p.2))) with
  | error x => rw [hck] at hc; cases hc
  | ok q =>
    rw [hck] at hc
    have hl0 := coreKey_length _ _ _ _ q hck
    obtain ⟨qe, ql, qb⟩ := q
    have hc := Except.ok.inj hc
    simp only [Prod.mk.injEq] at hc
    obtain ⟨rfl, hd0, rfl⟩ := hc
    have hl : ql.length = raw.length := by simpa [keys] using hl0
    clear hl0
    -- what is the same in `d0` as in the result of the eigensolver
    have hkeep : d0.map (fun p => (p.1, p.2.values.v, p.2.dim, p.2.m, p.2.values.cShift, p.2.nrstored))
        = raw.map fun p => (p.1, p.2.val, p.2.vec.cols, p.2.vec, P.nan, -1) := by
      rw [← hd0]
      exact zipWith_raw P.nan _ raw ql hl
    have hfr := split_frame hsp
    have hm : (setMeta sc tot d1').map fields = d0.map fields := by
      rw [← frame_fields hfr]
      unfold setMeta
      rw [List.map_map]
      rfl
    have hk : keys (setMeta sc tot d1') = keys d0 := by
      rw [← frame_keys hfr]
      unfold setMeta keys
      rw [List.map_map]
      rfl
    have hk0 : keys d0 = keys (raw.map fun p => (p.1, ofRaw P.nan (decide (N + 1 = P.Nmax)) p.2)) := by
      have := congrArg (List.map fun x : Label × List K × Nat × Mat K × K × Int => (x.2.1, x.2.2.1)) hkeep
      rw [List.map_map, List.map_map] at this
      unfold keys
      rw [List.map_map]
      exact this
    have hlab : (setMeta sc tot d1').map Prod.fst = raw.map Prod.fst := by
      have h1 := congrArg (List.map Prod.fst) hfr
      rw [List.map_map, List.map_map] at h1
      have h2 := congrArg (List.map Prod.fst) hkeep
      rw [List.map_map, List.map_map] at h2
      unfold setMeta
      rw [List.map_map]
      exact h1.trans h2
    have hmem0 : ∀ p ∈ d0, ∃ x ∈ raw, (p.1, p.2.values.v, p.2.dim, p.2.m, p.2.values.cShift, p.2.nrstored)
        = (x.1, x.2.val, x.2.vec.cols, x.2.vec, P.nan, -1) := by
      intro p hp
      have : (p.1, p.2.values.v, p.2.dim, p.2.m, p.2.values.cShift, p.2.nrstored) ∈
          raw.map fun p => (p.1, p.2.val, p.2.vec.cols, p.2.vec, P.nan, (-1 : Int)) := by
        rw [← hkeep]; exact List.mem_map.2 ⟨p, hp, rfl⟩
      obtain ⟨x, hx, he⟩ := List.mem_map.1 this
      exact ⟨x, hx, he.symm⟩
    have hall : ∀ q ∈ d1', (q.2.WF ∧ q.2.m = noMatrix) ∧ q.2.values.cShift = P.nan ∧
        0 < nrstored q.2 ∧ nrstored q.2 ≤ q.2.dim ∧ ∃ ds, str.lookup q.1 = some ds ∧ ds.sum = q.2.dim := by
      refine mapM_all _ _ d0 d1' ?_ hsp
      intro p hp q hq
      obtain ⟨x, hx, he⟩ := hmem0 p hp
      simp only [Prod.mk.injEq] at he
      obtain ⟨e1, e2, e3, e4, e5, e6⟩ := he
      obtain ⟨hwf, ds, hds, hsum⟩ := hcols x hx
      have hfq := splitOne_frame hq
      have hn := nrstored_of_frame hfq
      have hfq' := hfq
      simp only [frame, Prod.mk.injEq] at hfq'
      obtain ⟨f1, f2, f3, f4, f5, f6⟩ := hfq'
      obtain ⟨_, _, g2, _⟩ := splitOne_ok hq
      obtain ⟨g3, g4, _⟩ := splitEig_ok g2
      refine ⟨splitOne_wf (by rw [e4]; exact hwf) hq, by rw [f2]; exact e5, by rw [hn]; exact g3, by rw [hn, f3]; exact g4,
        ds, by rw [f1, e1]; exact hds, by rw [hsum, f3, e3]⟩
    have hall' : ∀ q ∈ setMeta sc tot d1', (q.2.WF ∧ q.2.m = noMatrix) ∧ q.2.values.cShift = P.nan ∧
        0 < nrstored q.2 ∧ nrstored q.2 ≤ q.2.dim ∧ ∃ ds, str.lookup q.1 = some ds ∧ ds.sum = q.2.dim := by
      intro q hq
      unfold setMeta at hq
      obtain ⟨p, hp, rfl⟩ := List.mem_map.1 hq
      exact hall p hp
    refine ⟨?_, ?_, ?_, ?_⟩
    · intro files hfile
      exact loadFile_saved P _ (sorted_of_keys raw _ hlab hsort) (fun p hp => (hall' p hp).1.1)
        (fun p hp => (hall' p hp).2.1) files N hfile
    · intro d g1 g2
      refine ⟨qb, ?_, hb⟩
      exact core_again _ _ _ _ d0 _ _ _ ha (by rw [g1, hk, hk0]) (by rw [g2, hm])
    · intro p hp
      obtain ⟨h1, _, h3⟩ := hall' p hp
      exact ⟨h1.2, h3⟩
    · intro he
      have : raw.map Prod.fst = [] := by rw [← hlab, he]; rfl
      have : raw = [] := by simpa using this
      subst this
      unfold coreKey keys at hck
      simp [Thermo.minOf] at hck

end steps

end Verif.Sweep
