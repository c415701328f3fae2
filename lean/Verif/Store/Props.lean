import Verif.Store.Lemmas
/-!
# C13-C15: stored spectra
-/

namespace Verif.Store
open Verif.Invar (Label)
variable {R : Type}

/-! ## C13 -/

/-- A record as it exists in memory: matrices with consistent dimensions. -/
def Eig.WF (e : Eig R) : Prop := e.m.WF ∧ ∀ m ∈ e.blocks, m.WF

/-- A record without the one member that is not stored (`c_shift`, used only in
diagnostics: it is `NaN` after loading). -/
def Eig.stored (nan : R) (e : Eig R) : Eig R := { e with values := { e.values with cShift := nan } }

/-- **C13.** A spectrum record reads back as written, consuming exactly the data
written. -/
theorem eig_roundtrip (nan : R) (e : Eig R) (h : e.WF) (rest : List (Tok R)) :
    loadEig nan (saveEig e ++ rest) = some (e.stored nan, rest) :=
  loadEig_reads nan e h.1 h.2 rest

/-- **C13.** A complete map of spectra (any number of subspaces, in any sizes)
reads back as written. -/
theorem diag_roundtrip (nan : R) (d : List (Label × Eig R)) (hs : Sorted d) (h : ∀ p ∈ d, p.2.WF)
    (rest : List (Tok R)) :
    loadDiag nan (saveDiag d ++ rest) = some (d.map fun p => (p.1, p.2.stored nan), rest) :=
  loadMap_reads saveEig (loadEig nan) (Eig.stored nan) d hs
    (fun p hp => loadEig_reads nan p.2 (h p hp).1 (h p hp).2) rest

/-- **C13.** The same for density matrices; here nothing is lost. -/
theorem rho_roundtrip (d : List (Label × Mat R)) (hs : Sorted d) (h : ∀ p ∈ d, p.2.WF)
    (rest : List (Tok R)) : loadRho (saveRho d ++ rest) = some (d, rest) := by
  have := loadMap_reads saveMat loadMat id d hs (fun p hp => loadMat_reads p.2 (h p hp)) rest
  simpa [loadRho, saveRho] using this

/-- **C13, consequence.** Different maps of density matrices are never stored as
the same file. -/
theorem saveRho_injective (d d' : List (Label × Mat R)) (hs : Sorted d) (hs' : Sorted d')
    (h : ∀ p ∈ d, p.2.WF) (h' : ∀ p ∈ d', p.2.WF) (he : saveRho d = saveRho d') : d = d' := by
  have h1 := rho_roundtrip d hs h []
  have h2 := rho_roundtrip d' hs' h' []
  rw [he, h2] at h1
  simpa using h1.symm

/-- A small record: two states in a space of dimension 3. -/
def exampleEig : Eig Int :=
  { values := ⟨[1, 2], 3, 4, 5, 6, [1, 2], [1, 2], 7⟩
    m := ⟨2, 3, [[1, 0, 0], [0, 1, 0]]⟩
    dim := 3
    blocks := [⟨2, 1, [[1], [0]]⟩, ⟨2, 2, [[0, 0], [1, 0]]⟩]
    nrpost := 1, nrstored := -1, last := false }

example : exampleEig.WF := ⟨⟨rfl, by decide⟩, by
  intro m hm
  simp only [exampleEig, List.mem_cons, List.not_mem_nil, or_false] at hm
  rcases hm with rfl | rfl <;> exact ⟨rfl, by decide⟩⟩
example : Sorted [([-1, 2], exampleEig), ([0, 1], exampleEig)] := by simp [Sorted, Invar.lt]
example : (saveDiag [([-1, 2], exampleEig), ([0, 1], exampleEig)]).length = 79 := by decide +kernel

/-! ## C14 -/

section fs
variable {P D : Type} [DecidableEq P]

/-- **C14.** Whatever fails while a file is being written, and whenever the
process is killed, the file is either what it was before or complete. If the
call returns, it is complete and no temporary file is left; if it throws, the
file is what it was. No file other than the two involved ever changes. -/
theorem save_atomic (n : Names P) (chunks : List (List D)) (fs : FS P D) (s : SaveState P D)
    (h : SaveReaches n chunks fs s) :
    (s.fs n.fn = fs n.fn ∨ s.fs n.fn = some chunks.flatten) ∧
    (s.pc = .returned → s.fs n.fn = some chunks.flatten ∧ s.fs n.tmp = none) ∧
    (s.pc = .threw → s.fs n.fn = fs n.fn) ∧
    (∀ p, p ≠ n.fn → p ≠ n.tmp → s.fs p = fs p) := by
  obtain ⟨h0, hs⟩ := saveInv_reach n chunks fs s h
  refine ⟨?_, ?_, ?_, h0⟩
  · cases hpc : s.pc <;> rw [hpc] at hs <;> simp only at hs
    · left; rw [hs]
    · exact Or.inl hs.1
    · exact Or.inl hs.1
    · exact Or.inl hs.1
    · exact Or.inl hs.1
    · exact Or.inr hs.1
    · exact Or.inl hs
    · exact Or.inl hs
    · exact hs
  · intro hpc; rw [hpc] at hs; exact hs
  · intro hpc; rw [hpc] at hs; exact hs

/-- **C14.** Saving can succeed: without faults the call returns with the
complete file in place. -/
theorem save_can_succeed (n : Names P) (chunks : List (List D)) (fs : FS P D) :
    ∃ s, SaveReaches n chunks fs s ∧ s.pc = .returned ∧ s.fs n.fn = some chunks.flatten := by
  have hw : ∀ (r : List (List D)) (s : SaveState P D), s.pc = .writing r → s.bad = false →
      ∃ t, Relation.ReflTransGen (SaveStep n chunks) s t ∧ t.pc = .writing [] ∧ t.bad = false := by
    intro r
    induction r with
    | nil => intro s h hb; exact ⟨s, .refl, h, hb⟩
    | cons c r ih =>
      intro s h hb
      obtain ⟨t, h1, h2, h3⟩ := ih ⟨s.fs, if s.bad then s.pending else s.pending ++ c, s.bad, .writing r⟩ rfl hb
      exact ⟨t, Relation.ReflTransGen.head (SaveStep.write s c r h) h1, h2, h3⟩
  have h1 : SaveStep n chunks (saveStart fs) _ := SaveStep.openOk (saveStart fs) rfl
  obtain ⟨t, g1, g2, g3⟩ := hw chunks ⟨fs.set n.tmp (some []), [], false, .writing chunks⟩ rfl rfl
  have h2 := SaveStep.writeDone (n := n) (chunks := chunks) t g2
  have h3 := SaveStep.flushOk (n := n) (chunks := chunks) { t with pc := .flushing } rfl g3
  have h4 := SaveStep.closeOk (n := n) (chunks := chunks)
    { t with fs := appendTmp n t.fs t.pending, pending := [], pc := .closing } rfl g3
  have h5 := SaveStep.renameOk (n := n) (chunks := chunks)
    { t with fs := appendTmp n t.fs t.pending, pending := [], pc := .renaming } rfl
  have hr : SaveReaches n chunks fs _ :=
    (((((Relation.ReflTransGen.single h1).trans g1).tail h2).tail h3).tail h4).tail h5
  exact ⟨_, hr, rfl, ((save_atomic n chunks fs _ hr).2.1 rfl).1⟩

/-- A sequence of saves of various files; each may end in any way (return,
exception, crash followed by a restart of the program). -/
inductive History (chunksOf : Names P → List (List D) → Prop) : FS P D → FS P D → Prop
  | nil (fs) : History chunksOf fs fs
  | save (fs fs') (n : Names P) (chunks : List (List D)) (s : SaveState P D)
      (h : History chunksOf fs fs') (hc : chunksOf n chunks) (hr : SaveReaches n chunks fs' s) :
      History chunksOf fs s.fs

/-- **C14, whole runs.** Let `good` be the files that hold what some complete
save wrote (or that do not exist). If all checkpoint names are good initially
and temporary names are never checkpoint names, then after any sequence of
saves, failures, crashes and restarts every checkpoint that exists is one that
was completely written. -/
theorem checkpoints_always_complete (isCheckpoint : P → Prop) (content : P → List D → Prop)
    (chunksOf : Names P → List (List D) → Prop)
    (hnames : ∀ n c, chunksOf n c → ¬ isCheckpoint n.tmp ∧ content n.fn c.flatten)
    (fs fs' : FS P D) (h : History chunksOf fs fs')
    (h0 : ∀ p, isCheckpoint p → ∀ x, fs p = some x → content p x) :
    ∀ p, isCheckpoint p → ∀ x, fs' p = some x → content p x := by
  induction h with
  | nil => exact h0
  | save fs' n chunks s _ hc hr ih =>
    intro p hp x hx
    obtain ⟨a1, _, _, a4⟩ := save_atomic n chunks fs' s hr
    obtain ⟨b1, b2⟩ := hnames n chunks hc
    by_cases hpf : p = n.fn
    · subst hpf
      rcases a1 with h | h
      · rw [h] at hx; exact ih n.fn hp x hx
      · rw [h] at hx; cases hx; exact b2
    · have : p ≠ n.tmp := by rintro rfl; exact b1 hp
      rw [a4 p hpf this] at hx
      exact ih p hp x hx

/-! ## C15 -/

/-- **C15.** Loading is all or nothing. If it reports success, the object is
what the file contains in full (reading fewer data than the file holds never
changes the outcome silently), and the file has been removed exactly if that
was requested; otherwise neither the object nor any file has changed. -/
theorem load_all_or_nothing {α} (decode : List D → Option (α × List D)) (fn : P) (removeFiles : Bool)
    (hmono : ∀ s x r t, decode s = some (x, r) → decode (s ++ t) = some (x, r ++ t))
    (f : LoadFaults) (fs : FS P D) (self : α) :
    let out := load decode fn removeFiles f fs self
    (out.1 = true → ∃ data rest, fs fn = some data ∧ decode data = some (out.2.2, rest) ∧
      out.2.1 fn = (if removeFiles then none else some data) ∧ ∀ p, p ≠ fn → out.2.1 p = fs p) ∧
    (out.1 = false → out.2.1 = fs ∧ out.2.2 = self) := by
  intro out
  simp only [out, load]
  cases hf : fs fn with
  | none => simp
  | some data =>
    simp only
    by_cases ho : f.openFails = true
    · simp [ho]
    · simp only [ho, Bool.false_eq_true, if_false]
      cases hd : decode (match f.cutAfter with | none => data | some k => data.take k) with
      | none => simp
      | some p =>
        obtain ⟨loaded, rest⟩ := p
        have hfull : ∃ rest', decode data = some (loaded, rest') := by
          cases hc : f.cutAfter with
          | none => rw [hc] at hd; exact ⟨rest, hd⟩
          | some k =>
            rw [hc] at hd
            have := hmono _ _ _ (data.drop k) hd
            rw [List.take_append_drop] at this
            exact ⟨_, this⟩
        obtain ⟨rest', hfull⟩ := hfull
        simp only
        by_cases hcf : f.closeFails = true
        · simp [hcf]
        · simp only [hcf, Bool.false_eq_true, if_false]
          by_cases hr : removeFiles = true
          · simp only [hr, if_true]
            by_cases hrf : f.removeFails = true
            · simp [hrf]
            · simp only [hrf, Bool.false_eq_true, if_false, forall_const, reduceCtorEq, false_implies, and_true]
              exact ⟨data, rest', rfl, hfull, set_same _ _ _, fun p hp => set_other _ _ hp⟩
          · have hr : removeFiles = false := by simpa using hr
            subst hr
            simp only [Bool.false_eq_true, if_false, forall_const, reduceCtorEq, false_implies, and_true]
            exact ⟨data, rest', rfl, hfull, hf, fun _ _ => trivial⟩

/-- The two decoders meet the hypothesis of `load_all_or_nothing`. -/
theorem decoders_mono (nan : R) : Mono (loadDiag nan) ∧ Mono (R := R) loadRho :=
  ⟨mono_loadMap (mono_loadEig nan), mono_loadMap mono_loadMat⟩

/-- **C13-C15 together.** After a save that returned, a load without faults
returns the stored spectra. -/
theorem load_after_save (nan : R) (n : Names P) (d : List (Label × Eig R)) (hs : Sorted d) (hw : ∀ p ∈ d, p.2.WF)
    (fs : FS P (Tok R)) (s : SaveState P (Tok R))
    (h : SaveReaches n (saveMapChunks saveEig d) fs s) (hr : s.pc = .returned) (removeFiles : Bool) (self) :
    (load (loadDiag nan) n.fn removeFiles ⟨false, none, false, false⟩ s.fs self).1 = true ∧
    (load (loadDiag nan) n.fn removeFiles ⟨false, none, false, false⟩ s.fs self).2.2
      = d.map fun p => (p.1, p.2.stored nan) := by
  obtain ⟨h1, _⟩ := (save_atomic n _ fs s h).2.1 hr
  have hd : loadDiag nan (saveMapChunks saveEig d).flatten = some (d.map fun p => (p.1, p.2.stored nan), []) := by
    have := diag_roundtrip nan d hs hw []
    simpa [saveDiag, saveMap] using this
  cases removeFiles <;> simp [load, h1, hd]

/-- A truncated file is rejected: no proper prefix of a stored file loads with
all its data used up. -/
theorem truncated_not_accepted (nan : R) (d : List (Label × Eig R)) (hs : Sorted d) (hw : ∀ p ∈ d, p.2.WF)
    (k : Nat) (hk : k < (saveDiag d).length) : loadDiag nan ((saveDiag d).take k) = none := by
  cases h : loadDiag nan ((saveDiag d).take k) with
  | none => rfl
  | some p =>
    obtain ⟨x, r⟩ := p
    have h1 := (decoders_mono nan).1 _ _ _ ((saveDiag d).drop k) h
    rw [List.take_append_drop] at h1
    have h2 := diag_roundtrip nan d hs hw []
    rw [List.append_nil, h1] at h2
    have h3 : r ++ (saveDiag d).drop k = [] := by
      have := congrArg (fun o => o.map Prod.snd) h2
      simpa using this
    have h4 := congrArg List.length h3
    simp at h4
    omega

example : (loadDiag (0 : Int) ((saveDiag [([-1, 2], exampleEig)]).take 20)).isNone = true := by decide +kernel

end fs

end Verif.Store
