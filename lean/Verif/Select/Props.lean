import Verif.Select.Lemmas
/-!
# The spectra computed are the requested ones, from operators carried through every step
-/

namespace Verif.Select

open Verif.Text Verif.Config

/-! ## The list of spectra -/

/-- C79: a spectrum is computed in a sweep exactly when it is wanted: its operators exist, are of kinds that
the family combines, its name is one of the words of the setting of the family, and the
algorithm is applied in this sweep. -/
theorem spectra_exactly (run : Run) (cfg : Cfg) (names : Kind → List Str) (e : Entry) :
    e ∈ (create run cfg names).sl ↔ Wanted run cfg names e := by
  rw [create_eq]
  simp only [List.mem_flatMap]
  constructor
  · rintro ⟨g, hg, he⟩
    obtain ⟨g1, g2, g3, g4⟩ := mem_groups.1 hg
    obtain ⟨h1, h2, h3, h4, h5, h6, h7, h8, h9, h10⟩ := mem_grpSl.1 he
    rw [g1, mem_tokens] at h3
    rw [mem_methods] at h4
    refine ⟨by rw [h6]; exact h1, by rw [h7]; exact h2, by rw [h5, h6, h7]; exact g2, by rw [h5, h8]; exact g3, ?_,
      by rw [h5]; exact h3, by rw [h5]; exact h4, by rw [h10, h5]; exact g4⟩
    rw [h8, ← specName_iff (spinOK_cases g3)]
    exact h9
  · intro h
    refine ⟨⟨tokens (cfg.list e.pre), e.pre, e.k1, e.k2, e.bosonic, e.spin⟩, mem_groups.2
      ⟨rfl, h.combines, h.spin, h.stat⟩, mem_grpSl.2 ⟨h.first, h.second, mem_tokens.2 h.listed,
        mem_methods.2 h.applies, rfl, rfl, rfl, rfl, ?_, rfl⟩⟩
    exact (specName_iff (spinOK_cases h.spin)).2 h.name

theorem grpSl_nodup (run : Run) (sw : Sw) (names : Kind → List Str) (hn : ∀ k, (names k).Nodup) (g : Grp) :
    (grpSl run sw names g).Nodup := by
  have mem : ∀ n1 n2 e, e ∈ pairSl run sw g n1 n2 → e.n1 = n1 ∧ e.n2 = n2 := by
    intro n1 n2 e he
    unfold pairSl at he
    split at he
    · obtain ⟨m, -, rfl⟩ := List.mem_map.1 he
      exact ⟨rfl, rfl⟩
    · exact absurd he (by simp)
  unfold grpSl
  rw [List.nodup_flatMap]
  refine ⟨fun n1 _ => ?_, ?_⟩
  · rw [List.nodup_flatMap]
    refine ⟨fun n2 _ => ?_, ?_⟩
    · unfold pairSl
      split
      · refine List.Nodup.map ?_ (methods_nodup run sw g.pre)
        intro a b hab
        simpa using hab
      · simp
    · refine (hn g.k2).imp ?_
      intro a b hab e h1 h2
      exact hab ((mem n1 a e h1).2.symm.trans (mem n1 b e h2).2)
  · refine (hn g.k1).imp ?_
    intro a b hab e h1 h2
    obtain ⟨x, -, h1⟩ := List.mem_flatMap.1 h1
    obtain ⟨y, -, h2⟩ := List.mem_flatMap.1 h2
    exact hab ((mem a x e h1).1.symm.trans (mem b y e h2).1)

/-- C79: no spectrum is computed twice by the same algorithm. -/
theorem spectra_once (run : Run) (cfg : Cfg) (names : Kind → List Str) (hn : ∀ k, (names k).Nodup) :
    (create run cfg names).sl.Nodup := by
  rw [create_eq]
  simp only
  rw [List.nodup_flatMap]
  refine ⟨fun g _ => grpSl_nodup run cfg.sw names hn g, ?_⟩
  have key : ((groups cfg).map fun g => (g.pre, g.k1, g.k2, g.spin)).Nodup := by
    unfold groups spins
    cases cfg.isfield <;> simp
  rw [List.Nodup, List.pairwise_map] at key
  refine key.imp ?_
  intro a b hab e h1 h2
  obtain ⟨-, -, -, -, p1, p2, p3, p4, -, -⟩ := mem_grpSl.1 h1
  obtain ⟨-, -, -, -, q1, q2, q3, q4, -, -⟩ := mem_grpSl.1 h2
  apply hab
  rw [← p1, ← p2, ← p3, ← p4, ← q1, ← q2, ← q3, ← q4]

/-- The set of operators to recalculate is that of the operators of the spectra. -/
theorem ops_iff (run : Run) (cfg : Cfg) (names : Kind → List Str) (k : Kind) (n : Str) :
    (k, n) ∈ (create run cfg names).ops ↔
      ∃ e ∈ (create run cfg names).sl, (e.k1 = k ∧ e.n1 = n) ∨ (e.k2 = k ∧ e.n2 = n) := by
  rw [create_eq]
  simp only [List.mem_flatMap]
  constructor
  · rintro ⟨g, hg, h⟩
    unfold grpOps pairOps at h
    simp only [List.mem_flatMap] at h
    obtain ⟨n1, h1, n2, h2, h⟩ := h
    by_cases hw : specName n1 n2 g.spin ∈ g.toks
    · rw [if_pos hw] at h
      by_cases hm : methods run cfg.sw g.pre = []
      · rw [if_pos hm] at h; exact absurd h (by simp)
      · rw [if_neg hm] at h
        obtain ⟨m, hm⟩ := List.exists_mem_of_ne_nil _ hm
        refine ⟨⟨g.pre, m, g.k1, n1, g.k2, n2, g.spin, specName n1 n2 g.spin, g.bosonic⟩,
          ⟨g, hg, mem_grpSl.2 ⟨h1, h2, hw, hm, rfl, rfl, rfl, rfl, rfl, rfl⟩⟩, ?_⟩
        simp only [List.mem_cons, Prod.mk.injEq, List.not_mem_nil, or_false] at h
        rcases h with ⟨rfl, rfl⟩ | ⟨rfl, rfl⟩
        · exact Or.inl ⟨rfl, rfl⟩
        · exact Or.inr ⟨rfl, rfl⟩
    · rw [if_neg hw] at h; exact absurd h (by simp)
  · rintro ⟨e, ⟨g, hg, he⟩, h⟩
    obtain ⟨h1, h2, h3, h4, h5, h6, h7, h8, h9, h10⟩ := mem_grpSl.1 he
    refine ⟨g, hg, ?_⟩
    unfold grpOps pairOps
    simp only [List.mem_flatMap]
    refine ⟨e.n1, h1, e.n2, h2, ?_⟩
    rw [if_pos (h9 ▸ h3), if_neg (List.ne_nil_of_mem h4), ← h6, ← h7]
    rcases h with ⟨rfl, rfl⟩ | ⟨rfl, rfl⟩ <;> simp

/-! ## The operators in the course of a sweep -/

/-- The operators in the `i`-th step. -/
def opsAt {M : Type} (run : Run) (cfg : Cfg) (ops : List (Kind × Str)) (env : Env M) (N : Nat) (a : Opers M) :
    Nat → Opers M
  | 0 => recalculate run cfg ops env N a
  | i + 1 => recalculate run cfg ops env (N + (i + 1)) fun k n => env.trim (N + i) (opsAt run cfg ops env N a i k n)

theorem opsAt_shift {M : Type} (run : Run) (cfg : Cfg) (ops : List (Kind × Str)) (env : Env M) (N : Nat) (a : Opers M)
    (i : Nat) :
    opsAt run cfg ops env (N + 1) (fun k n => env.trim N (recalculate run cfg ops env N a k n)) i =
      opsAt run cfg ops env N a (i + 1) := by
  induction i with
  | zero => rfl
  | succ i ih =>
    rw [opsAt, ih]
    conv_rhs => rw [opsAt]
    rw [show N + 1 + (i + 1) = N + (i + 1 + 1) by omega, show N + 1 + i = N + (i + 1) by omega]

theorem sweep_getElem {M : Type} (run : Run) (cfg : Cfg) (names : Kind → List Str) (st : St) (env : Env M)
    (len N : Nat) (a : Opers M) (i : Nat) (hi : i < len) :
    (sweep run cfg names st env len N a)[i]? =
      some (evaluate run cfg names st (N + i) (opsAt run cfg st.ops env N a i)) := by
  induction len generalizing N a i with
  | zero => omega
  | succ len ih =>
    rw [sweep]
    cases i with
    | zero => rfl
    | succ i =>
      rw [List.getElem?_cons_succ, ih (N + 1) _ i (by omega), opsAt_shift,
        show N + 1 + i = N + (i + 1) by omega]

theorem sweep_length {M : Type} (run : Run) (cfg : Cfg) (names : Kind → List Str) (st : St) (env : Env M)
    (len N : Nat) (a : Opers M) : (sweep run cfg names st env len N a).length = len := by
  induction len generalizing N a with
  | zero => rfl
  | succ len ih => rw [sweep, List.length_cons, ih]

theorem opsAt_carried {M : Type} (run : Run) (cfg : Cfg) (ops : List (Kind × Str)) (env : Env M) (N : Nat) (a : Opers M)
    (k : Kind) (n : Str) (i : Nat) (h : ∀ j ≤ i, selected run cfg ops (N + j) k n = true) :
    opsAt run cfg ops env N a i k n = carried env N k n (a k n) i := by
  induction i with
  | zero =>
    have h0 : selected run cfg ops N k n = true := h 0 (le_refl 0)
    rw [opsAt, carried, recalculate, if_pos h0]
  | succ i ih =>
    rw [opsAt, carried, recalculate, if_pos (h (i + 1) (le_refl _)), ih fun j hj => h j (by omega)]

theorem selected_of_mem (run : Run) (cfg : Cfg) (ops : List (Kind × Str)) (N : Nat) (k : Kind) (n : Str)
    (h : (k, n) ∈ ops) : selected run cfg ops N k n = true := by
  cases k <;> simp [selected, h]

theorem singlets_congr {M : Type} (names : Kind → List Str) (a b : Opers M)
    (h : ∀ n, a .s n = b .s n ∧ a .g n = b .g n) : singlets names a = singlets names b := by
  unfold singlets
  congr 1
  · exact List.map_congr_left fun n _ => by rw [(h n).1]
  · exact List.map_congr_left fun n _ => by rw [(h n).2]

/-- C79: the steps of a sweep are evaluated one by one, and in every step each spectrum is
computed from its two operators as obtained by recalculating them in each of the steps so far: they are
never dropped on the way. The same holds for all the singlet operators when
expectation values are evaluated: in every step of the first sweep, and in
step `fdmexpvn` of the second one. -/
theorem spectra_use_carried {M : Type} (run : Run) (cfg : Cfg) (names : Kind → List Str) (env : Env M)
    (Ninit Nlen : Nat) (a : Opers M) :
    (runSweep run cfg names env Ninit Nlen a).length = Nlen - Ninit ∧
    ∀ i < Nlen - Ninit, ∃ r, (runSweep run cfg names env Ninit Nlen a)[i]? = some r ∧ r.N = Ninit + i ∧
      r.spectra = (create run cfg names).sl.map (fun e =>
        (e, carried env Ninit e.k1 e.n1 (a e.k1 e.n1) i, carried env Ninit e.k2 e.n2 (a e.k2 e.n2) i)) ∧
      r.custom = (if run = .nrg then singlets names fun k n => carried env Ninit k n (a k n) i else []) ∧
      r.customfdm = (if run = .dmnrg ∧ cfg.sw.fdmexpv = true ∧ Ninit + i = cfg.fdmexpvn
        then singlets names fun k n => carried env Ninit k n (a k n) i else []) := by
  unfold runSweep
  refine ⟨sweep_length .., fun i hi => ?_⟩
  refine ⟨_, sweep_getElem run cfg names _ env _ Ninit a i hi, rfl, ?_, ?_, ?_⟩
  · simp only [evaluate]
    refine List.map_congr_left fun e he => ?_
    rw [opsAt_carried _ _ _ _ _ _ _ _ _ fun j _ => selected_of_mem _ _ _ _ _ _
        ((ops_iff run cfg names e.k1 e.n1).2 ⟨e, he, Or.inl ⟨rfl, rfl⟩⟩),
      opsAt_carried _ _ _ _ _ _ _ _ _ fun j _ => selected_of_mem _ _ _ _ _ _
        ((ops_iff run cfg names e.k2 e.n2).2 ⟨e, he, Or.inr ⟨rfl, rfl⟩⟩)]
  · simp only [evaluate]
    by_cases hr : run = .nrg
    · rw [if_pos hr, if_pos hr]
      refine singlets_congr _ _ _ fun n => ⟨?_, ?_⟩ <;>
        exact opsAt_carried _ _ _ _ _ _ _ _ _ fun j _ => by simp [selected, hr]
    · rw [if_neg hr, if_neg hr]
  · simp only [evaluate]
    by_cases hr : run = .dmnrg ∧ cfg.sw.fdmexpv = true ∧ Ninit + i = cfg.fdmexpvn
    · rw [if_pos hr, if_pos hr]
      obtain ⟨h1, h2, h3⟩ := hr
      refine singlets_congr _ _ _ fun n => ⟨?_, ?_⟩ <;>
      · refine opsAt_carried _ _ _ _ _ _ _ _ _ fun j hj => ?_
        have : Ninit + j ≤ cfg.fdmexpvn := by omega
        simp [selected, h1, h2, this]
    · rw [if_neg hr, if_neg hr]

/-- The full-density-matrix expectation values of the second sweep are evaluated if and only if the
requested step is one of the steps of the sweep: for a value of `fdmexpvn` outside the
range nothing is evaluated, and nothing is reported. -/
theorem fdm_values_iff {M : Type} (cfg : Cfg) (names : Kind → List Str) (env : Env M) (Ninit Nlen : Nat) (a : Opers M)
    (hf : cfg.sw.fdmexpv = true) (hs : names .s ≠ [] ∨ names .g ≠ []) :
    (∃ r ∈ runSweep .dmnrg cfg names env Ninit Nlen a, r.customfdm ≠ []) ↔
      Ninit ≤ cfg.fdmexpvn ∧ cfg.fdmexpvn < Nlen := by
  obtain ⟨hlen, hrec⟩ := spectra_use_carried .dmnrg cfg names env Ninit Nlen a
  have hne : ∀ b : Opers M, singlets names b ≠ [] := by
    intro b h
    unfold singlets at h
    rw [List.append_eq_nil_iff, List.map_eq_nil_iff, List.map_eq_nil_iff] at h
    rcases hs with hs | hs
    · exact hs h.1
    · exact hs h.2
  constructor
  · rintro ⟨r, hr, hc⟩
    obtain ⟨i, hi, hri⟩ := List.getElem_of_mem hr
    rw [hlen] at hi
    obtain ⟨r', h1, h2, -, -, h3⟩ := hrec i hi
    rw [List.getElem?_eq_getElem (by rw [hlen]; exact hi), hri] at h1
    cases h1
    rw [h3] at hc
    by_cases h : Ninit + i = cfg.fdmexpvn
    · omega
    · rw [if_neg (fun e => h e.2.2)] at hc
      exact absurd rfl hc
  · rintro ⟨h1, h2⟩
    obtain ⟨r, hr, -, -, -, h3⟩ := hrec (cfg.fdmexpvn - Ninit) (by omega)
    refine ⟨r, List.mem_of_getElem? hr, ?_⟩
    rw [h3, if_pos ⟨rfl, hf, by omega⟩]
    exact hne _

/-! ## Output files -/

theorem split_at {d : Char} {a b x y : Str} (ha : d ∉ a) (hb : d ∉ b) (h : a ++ d :: x = b ++ d :: y) :
    a = b ∧ x = y := by
  induction a generalizing b with
  | nil =>
    cases b with
    | nil => simpa using h
    | cons c b =>
      simp only [List.nil_append, List.cons_append, List.cons.injEq] at h
      exact absurd h.1 (fun e => hb (by rw [e]; simp))
  | cons c a ih =>
    cases b with
    | nil =>
      simp only [List.nil_append, List.cons_append, List.cons.injEq] at h
      exact absurd h.1 (fun e => ha (by rw [← e]; simp))
    | cons c' b =>
      simp only [List.cons_append, List.cons.injEq] at h
      obtain ⟨e1, e2⟩ := ih (fun e => ha (by simp [e])) (fun e => hb (by simp [e])) h.2
      exact ⟨by rw [h.1, e1], e2⟩

theorem pre_inj {a b : Pre} (h : a.text = b.text) : a = b := by
  revert h; cases a <;> cases b <;> decide

theorem meth_inj {a b : Meth} (h : a.text = b.text) : a = b := by
  have key : ∀ a b : Config.Algo, (Meth.freq a).text = (Meth.freq b).text → a = b := by
    intro a b; cases a <;> cases b <;> decide
  have k2 : ∀ a : Config.Algo, (Meth.freq a).text ≠ Meth.GT.text ∧ (Meth.freq a).text ≠ Meth.I1T.text ∧
      (Meth.freq a).text ≠ Meth.I2T.text ∧ (Meth.freq a).text ≠ Meth.CHIT.text := by
    intro a; cases a <;> decide
  cases a <;> cases b <;>
    first
    | rfl
    | exact congrArg _ (key _ _ h)
    | exact absurd h (k2 _).1
    | exact absurd h (k2 _).2.1
    | exact absurd h (k2 _).2.2.1
    | exact absurd h (k2 _).2.2.2
    | exact absurd h.symm (k2 _).1
    | exact absurd h.symm (k2 _).2.1
    | exact absurd h.symm (k2 _).2.2.1
    | exact absurd h.symm (k2 _).2.2.2
    | exact absurd h (by decide)

theorem pre_plain (a : Pre) : '_' ∉ a.text := by cases a <;> decide

theorem meth_plain (m : Meth) : '_' ∉ m.text := by
  cases m with
  | freq a => cases a <;> decide
  | _ => decide

/-- Two spectra written to the same file belong to the same family and algorithm
and have the same name. -/
theorem fileName_inj {e f : Entry} (h : fileName e = fileName f) :
    e.pre = f.pre ∧ e.meth = f.meth ∧ e.name = f.name := by
  unfold fileName at h
  simp only [List.append_assoc, List.cons_append] at h
  obtain ⟨h1, h2⟩ := split_at (pre_plain _) (pre_plain _) h
  have : ∀ x : Str, "_dens_".toList ++ x = '_' :: ("dens_".toList ++ x) := fun _ => rfl
  rw [this, this] at h2
  obtain ⟨h3, h4⟩ := split_at (meth_plain _) (meth_plain _) h2
  exact ⟨pre_inj h1, meth_inj h3, List.append_cancel_left h4⟩

theorem nameOf_inj {n1 n2 m1 m2 : Str} {sp sp' : Int} {name : Str}
    (hn : '-' ∉ n1 ∧ '-' ∉ n2) (hm : '-' ∉ m1 ∧ '-' ∉ m2)
    (h : NameOf n1 n2 sp name) (h' : NameOf m1 m2 sp' name) : n1 = m1 ∧ n2 = m2 ∧ sp = sp' := by
  have aux : ∀ {n1 n2 : Str} {sp : Int} {name : Str}, NameOf n1 n2 sp name →
      ∃ u : Str, name = n1 ++ '-' :: (n2 ++ u) ∧
        ((sp = 0 ∧ u = []) ∨ (sp = 1 ∧ u = ['-', 'u']) ∨ (sp = -1 ∧ u = ['-', 'd'])) := by
    rintro n1 n2 sp name (⟨rfl, rfl⟩ | ⟨rfl, rfl⟩ | ⟨rfl, rfl⟩)
    · exact ⟨[], by simp, Or.inl ⟨rfl, rfl⟩⟩
    · exact ⟨['-', 'u'], by simp, Or.inr (Or.inl ⟨rfl, rfl⟩)⟩
    · exact ⟨['-', 'd'], by simp, Or.inr (Or.inr ⟨rfl, rfl⟩)⟩
  obtain ⟨u, e1, hu⟩ := aux h
  obtain ⟨v, e2, hv⟩ := aux h'
  obtain ⟨e3, e4⟩ := split_at hn.1 hm.1 (e1.symm.trans e2)
  refine ⟨e3, ?_⟩
  have nod : ∀ {x y w : Str} {c : Char}, '-' ∉ x → x ++ [] = y ++ '-' :: w → False := by
    intro x y w c hx he
    apply hx
    rw [List.append_nil] at he
    rw [he]; simp
  rcases hu with ⟨rfl, rfl⟩ | ⟨rfl, rfl⟩ | ⟨rfl, rfl⟩ <;> rcases hv with ⟨rfl, rfl⟩ | ⟨rfl, rfl⟩ | ⟨rfl, rfl⟩
  · exact ⟨by simpa using e4, rfl⟩
  · exact (nod (c := 'u') hn.2 e4).elim
  · exact (nod (c := 'u') hn.2 e4).elim
  · exact (nod (c := 'u') hm.2 e4.symm).elim
  · exact ⟨(split_at hn.2 hm.2 e4).1, rfl⟩
  · exact absurd (split_at hn.2 hm.2 e4).2 (by decide)
  · exact (nod (c := 'u') hm.2 e4.symm).elim
  · exact absurd (split_at hn.2 hm.2 e4).2 (by decide)
  · exact ⟨(split_at hn.2 hm.2 e4).1, rfl⟩

/-- C80: the spectra of the two sweeps are written to different files, when the names of operators contain
no dash and no name is used for singlet operators of two kinds. -/
theorem files_distinct_partial (cfg : Cfg) (names : Kind → List Str) (run run' : Run)
    (hd : ∀ k, ∀ n ∈ names k, '-' ∉ n)
    (hk : ∀ k k', ∀ n, k ∈ [Kind.s, .p, .g] → k' ∈ [Kind.s, .p, .g] → n ∈ names k → n ∈ names k' → k = k')
    (e f : Entry) (he : e ∈ (create run cfg names).sl) (hf : f ∈ (create run' cfg names).sl)
    (h : fileName e = fileName f) : e = f := by
  rw [spectra_exactly] at he hf
  obtain ⟨h1, h2, h3⟩ := fileName_inj h
  have hn := he.name
  rw [h3] at hn
  obtain ⟨g1, g2, g3⟩ := nameOf_inj ⟨hd _ _ he.first, hd _ _ he.second⟩ ⟨hd _ _ hf.first, hd _ _ hf.second⟩ hn hf.name
  have hb : e.bosonic = f.bosonic := by rw [he.stat, hf.stat, h1]
  have a1 := he.first
  have a2 := he.second
  have b1 := hf.first
  have b2 := hf.second
  have c1 := he.combines
  have c2 := hf.combines
  obtain ⟨p, m, k1, n1, k2, n2, sp, nm, bo⟩ := e
  obtain ⟨p', m', k1', n1', k2', n2', sp', nm', bo'⟩ := f
  simp only at *
  subst h1 h2 h3 g1 g2 g3 hb
  have hk1 : k1 = k1' := by
    cases p <;> simp only [Combines] at c1 c2
    case corr => exact hk k1 k1' n1 (by simp; tauto) (by simp; tauto) a1 b1
    case chit => exact hk k1 k1' n1 (by simp; tauto) (by simp; tauto) a1 b1
    all_goals rw [c1.1, c2.1]
  have hk2 : k2 = k2' := by
    cases p <;> simp only [Combines] at c1 c2
    case corr => exact hk k2 k2' n2 (by simp; tauto) (by simp; tauto) a2 b2
    case chit => exact hk k2 k2' n2 (by simp; tauto) (by simp; tauto) a2 b2
    all_goals rw [c1.2, c2.2]
  rw [hk1, hk2]

/-! ## Concrete cases -/

def noSw : Sw := ⟨false, false, false, false, false, false, false, false, false, false, false, false, false, false,
  false, false, false, false, false⟩

def noCfg : Cfg := ⟨[], [], [], [], [], [], [], [], [], noSw, false, 0⟩

def exNames : Kind → List Str
  | .s => ["n_d".toList]
  | .d => ["A_d".toList, "self_d".toList]
  | _ => []

def exCfg : Cfg := { noCfg with
  specs := "n_d-n_d".toList
  specd := " A_d-A_d  self_d-A_d typo-A_d ".toList
  sw := { noSw with finite := true, fdm := true, fdmexpv := true } }

/-- Two spectral functions and one correlator in each sweep; the name with an unknown operator
is ignored. -/
example : ((create .nrg exCfg exNames).sl.map fun e => String.ofList (fileName e)) =
      ["corr_FT_dens_n_d-n_d", "spec_FT_dens_A_d-A_d", "spec_FT_dens_self_d-A_d"] ∧
    ((create .dmnrg exCfg exNames).sl.map fun e => String.ofList (fileName e)) =
      ["corr_FDM_dens_n_d-n_d", "spec_FDM_dens_A_d-A_d", "spec_FDM_dens_self_d-A_d"] := by
  decide +kernel

/-- The hypotheses of `files_distinct_partial` and `spectra_once` hold for it. -/
example : (∀ k, ∀ n ∈ exNames k, '-' ∉ n) ∧ (∀ k, (exNames k).Nodup) ∧
    (∀ k k', ∀ n, k ∈ [Kind.s, .p, .g] → k' ∈ [Kind.s, .p, .g] → n ∈ exNames k → n ∈ exNames k' → k = k') := by
  refine ⟨?_, ?_, ?_⟩
  · intro k; cases k <;> decide
  · intro k; cases k <;> decide
  · intro k k' n hk hk' h h'
    revert hk hk' h h'
    cases k <;> cases k' <;> simp [exNames]

/-- A symmetry type with field: the spin is part of the name. -/
example : ((create .dmnrg { exCfg with isfield := true, specd := "A_d-A_d-u A_d-A_d".toList } exNames).sl.map
      fun e => (String.ofList (fileName e), e.spin)) =
    [("corr_FDM_dens_n_d-n_d", 0), ("spec_FDM_dens_A_d-A_d-u", 1)] := by
  decide +kernel

/-- The negation of C80, first witness: operators `a-b`, `c` and `a`, `b-c`. Two different
spectra are written to the same file. -/
theorem files_collide_dash : ∃ (cfg : Cfg) (names : Kind → List Str) (e f : Entry),
    (∀ k, (names k).Nodup) ∧ e ∈ (create .nrg cfg names).sl ∧ f ∈ (create .nrg cfg names).sl ∧ e ≠ f ∧
      fileName e = fileName f := by
  let names : Kind → List Str := fun k => if k = .d then ["a".toList, "a-b".toList, "b-c".toList, "c".toList] else []
  let cfg : Cfg := { noCfg with specd := "a-b-c".toList, sw := { noSw with finite := true } }
  refine ⟨cfg, names, ⟨.spec, .freq .FT, .d, "a".toList, .d, "b-c".toList, 0, "a-b-c".toList, false⟩,
    ⟨.spec, .freq .FT, .d, "a-b".toList, .d, "c".toList, 0, "a-b-c".toList, false⟩, ?_, ?_, ?_, ?_, ?_⟩
  · intro k; cases k <;> decide
  · decide +kernel
  · decide +kernel
  · decide
  · rfl

/-- The negation of C80, second witness: the name `n` of an operator of kind `s` and of one of
kind `g`. Four spectra are written to the same file. -/
theorem files_collide_kinds : ∃ (cfg : Cfg) (names : Kind → List Str) (e f : Entry),
    (∀ k, (names k).Nodup) ∧ e ∈ (create .nrg cfg names).sl ∧ f ∈ (create .nrg cfg names).sl ∧ e ≠ f ∧
      fileName e = fileName f := by
  let names : Kind → List Str := fun k => if k = .s ∨ k = .g then ["n".toList] else []
  let cfg : Cfg := { noCfg with specs := "n-n".toList, sw := { noSw with finite := true } }
  refine ⟨cfg, names, ⟨.corr, .freq .FT, .s, "n".toList, .s, "n".toList, 0, "n-n".toList, true⟩,
    ⟨.corr, .freq .FT, .g, "n".toList, .g, "n".toList, 0, "n-n".toList, true⟩, ?_, ?_, ?_, ?_, ?_⟩
  · intro k; cases k <;> decide
  · decide +kernel
  · decide +kernel
  · decide
  · rfl

/-- A sweep of three steps with counting of the recalculations: the matrices are those
recalculated in every step, and the expectation values are evaluated in step 1. -/
example : (runSweep (M := List Nat) .dmnrg { exCfg with fdmexpvn := 1 } exNames
      ⟨fun N _ _ m => m ++ [N], fun _ m => m, [99]⟩ 0 3 fun _ _ => []).map
      (fun r => (r.N, r.spectra.map (fun x => x.2.1), r.customfdm.map fun x => x.2.2)) =
    [(0, [[0], [0], [0]], []), (1, [[0, 1], [0, 1], [0, 1]], [[0, 1]]),
      (2, [[0, 1, 2], [0, 1, 2], [0, 1, 2]], [])] := by
  decide +kernel

end Verif.Select
