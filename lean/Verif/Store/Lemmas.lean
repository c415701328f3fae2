import Verif.Store.FS
import Verif.Invar.Lemmas
/-!
# Helper lemmas for stored spectra
-/

namespace Verif.Store
open Verif.Invar (Label)
variable {R : Type}

/-! ## Readers that undo writers -/

/-- `f` reads back what was written as `w`, giving `x`, and leaves the rest. -/
def Reads {α} (f : Reader R α) (w : List (Tok R)) (x : α) : Prop := ∀ rest, f (w ++ rest) = some (x, rest)

theorem reads_real (x : R) : Reads readReal [.real x] x := fun _ => rfl
theorem reads_size (n : Nat) : Reads (R := R) readSize [.size n] n := fun _ => rfl
theorem reads_int (n : Int) : Reads (R := R) readInt [.int n] n := fun _ => rfl
theorem reads_flag (n : Bool) : Reads (R := R) readFlag [.flag n] n := fun _ => rfl

theorem readN_reads {α} (f : Reader R α) (items : List (List (Tok R) × α))
    (h : ∀ p ∈ items, Reads f p.1 p.2) :
    Reads (readN f items.length) (items.flatMap Prod.fst) (items.map Prod.snd) := by
  induction items with
  | nil => intro rest; rfl
  | cons p l ih =>
    intro rest
    have h1 := h p (by simp) (l.flatMap Prod.fst ++ rest)
    have h2 := ih (fun q hq => h q (by simp [hq])) rest
    simp only [List.flatMap_cons, List.append_assoc, List.length_cons, readN, h1, List.map_cons]
    simp [h2]

theorem readN_reads' {α β} (f : Reader R α) (w : β → List (Tok R)) (g : β → α) (l : List β)
    (h : ∀ b ∈ l, Reads f (w b) (g b)) : Reads (readN f l.length) (l.flatMap w) (l.map g) := by
  have := readN_reads f (l.map fun b => (w b, g b)) (by
    intro p hp
    obtain ⟨b, hb, rfl⟩ := List.mem_map.1 hp
    exact h b hb)
  simpa [List.flatMap_map, Function.comp_def] using this

theorem flatMap_singleton_map {β γ} (f : β → γ) (l : List β) : (l.flatMap fun b => [f b]) = l.map f := by
  induction l with
  | nil => rfl
  | cons a l ih => simp [ih]

theorem readN_map {α β} (f : Reader R α) (t : β → Tok R) (g : β → α) (l : List β)
    (h : ∀ b, Reads f [t b] (g b)) : Reads (readN f l.length) (l.map t) (l.map g) := by
  have := readN_reads' f (fun b => [t b]) g l (fun b _ => h b)
  simpa [flatMap_singleton_map] using this

theorem loadVec_reads (v : List R) : Reads loadVec (saveVec v) v := by
  intro rest
  have := readN_map (R := R) readReal Tok.real id v reads_real rest
  simp only [List.map_id] at this
  simp [loadVec, saveVec, readSize, this]

theorem loadLabel_reads (I : Label) : Reads (R := R) loadLabel (saveLabel I) I := by
  intro rest
  have := readN_map (R := R) readInt Tok.int id I reads_int rest
  simp only [List.map_id] at this
  simp [loadLabel, saveLabel, readSize, this]

theorem loadMat_reads (m : Mat R) (h : m.WF) : Reads loadMat (saveMat m) m := by
  intro rest
  have := readN_reads' (R := R) (readN readReal m.cols) (fun r => r.map Tok.real) id m.data (by
    intro r hr
    have := readN_map (R := R) readReal Tok.real id r reads_real
    rwa [h.2 r hr, List.map_id] at this) rest
  rw [h.1, List.map_id] at this
  simp [loadMat, saveMat, readSize, this]

theorem loadValues_reads (nan : R) (x : Values R) :
    Reads (loadValues nan) (saveValues x) { x with cShift := nan } := by
  intro rest
  simp only [saveValues, List.append_assoc, loadValues]
  rw [loadVec_reads x.v]
  simp only [Option.bind_eq_bind, Option.bind_some, List.cons_append, List.nil_append, readReal]
  rw [loadVec_reads x.corrected]
  simp only [Option.bind_some]
  rw [loadVec_reads x.c]
  rfl

theorem loadBlocks_reads (b : List (Mat R)) (h : ∀ m ∈ b, m.WF) : Reads loadBlocks (saveBlocks b) b := by
  intro rest
  have := readN_reads' (R := R) loadMat saveMat id b (fun m hm => loadMat_reads m (h m hm)) rest
  rw [List.map_id] at this
  simp [loadBlocks, saveBlocks, readSize, this]

theorem loadEig_reads (nan : R) (e : Eig R) (hm : e.m.WF) (hb : ∀ m ∈ e.blocks, m.WF) :
    Reads (loadEig nan) (saveEig e) { e with values := { e.values with cShift := nan } } := by
  intro rest
  simp only [saveEig, List.append_assoc, loadEig]
  rw [loadValues_reads nan e.values]
  simp only [Option.bind_eq_bind, Option.bind_some]
  rw [loadMat_reads e.m hm]
  simp only [Option.bind_some, List.cons_append, List.nil_append, readSize]
  rw [loadBlocks_reads e.blocks hb]
  rfl

/-! ## Maps -/

/-- Keys strictly increasing: the entries of a `std::map`. -/
def Sorted {β} (m : List (Label × β)) : Prop := m.Pairwise fun p q => Invar.lt p.1 q.1 = true

theorem mapSet_append {β} (acc : List (Label × β)) (k : Label) (x : β)
    (h : ∀ p ∈ acc, Invar.lt p.1 k = true) : mapSet k x acc = acc ++ [(k, x)] := by
  induction acc with
  | nil => rfl
  | cons p l ih =>
    have hp := h p (by simp)
    have h1 : Invar.lt k p.1 = false := by
      by_contra hc
      have hc : Invar.lt k p.1 = true := by simpa using hc
      have := Verif.Invar.lt_trans' _ _ _ hp hc
      rw [Verif.Invar.lt_irrefl'] at this
      cases this
    have h2 : k ≠ p.1 := by
      rintro rfl
      rw [Verif.Invar.lt_irrefl'] at hp
      cases hp
    simp only [mapSet, h1, Bool.false_eq_true, if_false, h2, List.cons_append]
    rw [ih fun q hq => h q (by simp [hq])]

theorem loadItems_reads {β} (saveItem : β → List (Tok R)) (loadItem : Reader R β) (g : β → β)
    (m acc : List (Label × β)) (hs : Sorted (acc ++ m.map fun p => (p.1, g p.2)))
    (hi : ∀ p ∈ m, Reads loadItem (saveItem p.2) (g p.2)) :
    Reads (loadItems loadItem m.length acc) (m.flatMap fun p => saveLabel p.1 ++ saveItem p.2)
      (acc ++ m.map fun p => (p.1, g p.2)) := by
  induction m generalizing acc with
  | nil => intro rest; simp [loadItems]
  | cons p l ih =>
    intro rest
    simp only [List.flatMap_cons, List.append_assoc, List.length_cons, loadItems]
    rw [loadLabel_reads p.1]
    simp only [Option.bind_eq_bind, Option.bind_some]
    rw [hi p (by simp)]
    simp only [Option.bind_some]
    have hlt : ∀ q ∈ acc, Invar.lt q.1 p.1 = true := by
      intro q hq
      exact (List.pairwise_append.1 hs).2.2 q hq (p.1, g p.2) (by simp)
    rw [mapSet_append acc p.1 (g p.2) hlt]
    have e : acc ++ [(p.1, g p.2)] ++ l.map (fun p => (p.1, g p.2))
        = acc ++ (p :: l).map fun p => (p.1, g p.2) := by simp
    rw [← e]
    exact ih (acc ++ [(p.1, g p.2)]) (by rw [e]; exact hs) (fun q hq => hi q (by simp [hq])) rest

theorem loadMap_reads {β} (saveItem : β → List (Tok R)) (loadItem : Reader R β) (g : β → β)
    (m : List (Label × β)) (hs : Sorted m) (hi : ∀ p ∈ m, Reads loadItem (saveItem p.2) (g p.2)) :
    Reads (loadMap loadItem) (saveMap saveItem m) (m.map fun p => (p.1, g p.2)) := by
  intro rest
  have hs' : Sorted ([] ++ m.map fun p => (p.1, g p.2)) := by
    simp only [Sorted, List.nil_append]
    rw [List.pairwise_map]
    exact hs
  have := loadItems_reads saveItem loadItem g m [] hs' hi rest
  simp only [List.nil_append] at this
  simp only [loadMap, saveMap, saveMapChunks, List.flatten_cons, List.cons_append, List.nil_append, readSize,
    Option.bind_eq_bind, Option.bind_some, ← List.flatMap_def]
  exact this

/-! ## Monotonicity: more data do not change what was read -/

def Mono {α} (f : Reader R α) : Prop := ∀ s x r t, f s = some (x, r) → f (s ++ t) = some (x, r ++ t)

theorem mono_size : Mono (R := R) readSize := by
  intro s x r t h
  unfold readSize at h ⊢
  split at h <;> simp_all
theorem mono_int : Mono (R := R) readInt := by
  intro s x r t h
  unfold readInt at h ⊢
  split at h <;> simp_all
theorem mono_flag : Mono (R := R) readFlag := by
  intro s x r t h
  unfold readFlag at h ⊢
  split at h <;> simp_all
theorem mono_real : Mono (R := R) readReal := by
  intro s x r t h
  unfold readReal at h ⊢
  split at h <;> simp_all

theorem mono_bind {α β} {f : Reader R α} {g : α → Reader R β} (hf : Mono f) (hg : ∀ a, Mono (g a)) :
    Mono (fun s => (f s).bind fun p => g p.1 p.2) := by
  intro s x r t h
  simp only at h ⊢
  cases hfs : f s with
  | none => rw [hfs] at h; cases h
  | some p =>
    obtain ⟨a, s'⟩ := p
    rw [hfs] at h
    rw [hf s a s' t hfs]
    exact hg a s' x r t h

theorem mono_pure {α} (x : α) : Mono (R := R) (fun s => some (x, s)) := by
  intro s y r t h; cases h; rfl

theorem mono_readN {α} {f : Reader R α} (hf : Mono f) (n : Nat) : Mono (readN f n) := by
  induction n with
  | zero => exact mono_pure _
  | succ n ih => exact mono_bind hf fun a => mono_bind ih fun b => mono_pure _

theorem mono_loadVec : Mono (R := R) loadVec := mono_bind mono_size fun n => mono_readN mono_real n
theorem mono_loadLabel : Mono (R := R) loadLabel := mono_bind mono_size fun n => mono_readN mono_int n
theorem mono_loadMat : Mono (R := R) loadMat :=
  mono_bind mono_size fun r => mono_bind mono_size fun c => mono_bind (mono_readN (mono_readN mono_real c) r)
    fun _ => mono_pure _
theorem mono_loadValues (nan : R) : Mono (loadValues nan) :=
  mono_bind mono_loadVec fun v => mono_bind mono_real fun a => mono_bind mono_real fun b =>
  mono_bind mono_real fun d => mono_bind mono_real fun e => mono_bind mono_loadVec fun f =>
  mono_bind mono_loadVec fun g => mono_pure (⟨v, a, b, d, e, f, g, nan⟩ : Values R)
theorem mono_loadBlocks : Mono (R := R) loadBlocks := mono_bind mono_size fun n => mono_readN mono_loadMat n
theorem mono_loadEig (nan : R) : Mono (loadEig nan) :=
  mono_bind (mono_loadValues nan) fun _ => mono_bind mono_loadMat fun _ => mono_bind mono_size fun _ =>
  mono_bind mono_loadBlocks fun _ => mono_bind mono_int fun _ => mono_bind mono_int fun _ =>
  mono_bind mono_flag fun _ => mono_pure _
theorem mono_loadItems {β} {f : Reader R β} (hf : Mono f) (n : Nat) (acc : List (Label × β)) :
    Mono (loadItems f n acc) := by
  induction n generalizing acc with
  | zero => exact mono_pure _
  | succ n ih => exact mono_bind mono_loadLabel fun k => mono_bind hf fun x => ih (mapSet k x acc)
theorem mono_loadMap {β} {f : Reader R β} (hf : Mono f) : Mono (loadMap f) :=
  mono_bind mono_size fun n => mono_loadItems hf n []

/-! ## The save state machine -/

section fs
variable {P D : Type} [DecidableEq P]

theorem set_same (fs : FS P D) (p : P) (x) : fs.set p x p = x := by simp [FS.set]
theorem set_other (fs : FS P D) {p q : P} (x) (h : q ≠ p) : fs.set p x q = fs q := by simp [FS.set, h]

/-- The inductive invariant of `save`. -/
def SaveInv (n : Names P) (chunks : List (List D)) (fs0 : FS P D) (s : SaveState P D) : Prop :=
  (∀ p, p ≠ n.fn → p ≠ n.tmp → s.fs p = fs0 p) ∧
  match s.pc with
  | .start => s.fs = fs0
  | .writing r => s.fs n.fn = fs0 n.fn ∧
      ∃ w, s.fs n.tmp = some w ∧ (s.bad = false → ∃ done, chunks = done ++ r ∧ w ++ s.pending = done.flatten)
  | .flushing => s.fs n.fn = fs0 n.fn ∧
      ∃ w, s.fs n.tmp = some w ∧ (s.bad = false → w ++ s.pending = chunks.flatten)
  | .closing => s.fs n.fn = fs0 n.fn ∧ s.pending = [] ∧ s.fs n.tmp = some chunks.flatten
  | .renaming => s.fs n.fn = fs0 n.fn ∧ s.fs n.tmp = some chunks.flatten
  | .returned => s.fs n.fn = some chunks.flatten ∧ s.fs n.tmp = none
  | .unwinding => s.fs n.fn = fs0 n.fn
  | .threw => s.fs n.fn = fs0 n.fn
  | .crashed => s.fs n.fn = fs0 n.fn ∨ s.fs n.fn = some chunks.flatten

theorem saveInv_step (n : Names P) (chunks : List (List D)) (fs0 : FS P D) (s t : SaveState P D)
    (hs : SaveInv n chunks fs0 s) (h : SaveStep n chunks s t) : SaveInv n chunks fs0 t := by
  have hne := n.ne
  obtain ⟨h0, hs⟩ := hs
  cases h with
  | openOk h =>
    rw [h] at hs; simp only at hs
    subst hs
    refine ⟨fun p hp1 hp2 => set_other _ _ hp2, set_other _ _ hne.symm, [], set_same _ _ _, fun _ => ⟨[], rfl, rfl⟩⟩
  | openFail h =>
    rw [h] at hs; simp only at hs
    exact ⟨h0, by rw [← hs]⟩
  | drain k hp h =>
    refine ⟨fun p hp1 hp2 => by simp only [appendTmp]; rw [set_other _ _ hp2]; exact h0 p hp1 hp2, ?_⟩
    have hfn : (appendTmp n s.fs (s.pending.take k)) n.fn = s.fs n.fn := set_other _ _ hne.symm
    have htmp : (appendTmp n s.fs (s.pending.take k)) n.tmp
        = some ((s.fs n.tmp).getD [] ++ s.pending.take k) := set_same _ _ _
    rcases h with ⟨r, h⟩ | h | h | h
    · rw [h] at hs ⊢; simp only at hs ⊢
      obtain ⟨g1, w, g2, g3⟩ := hs
      refine ⟨by rw [hfn]; exact g1, _, htmp, fun hb => ?_⟩
      obtain ⟨done, e1, e2⟩ := g3 hb
      refine ⟨done, e1, ?_⟩
      rw [g2, Option.getD_some, List.append_assoc, List.take_append_drop, e2]
    · rw [h] at hs ⊢; simp only at hs ⊢
      obtain ⟨g1, w, g2, g3⟩ := hs
      refine ⟨by rw [hfn]; exact g1, _, htmp, fun hb => ?_⟩
      rw [g2, Option.getD_some, List.append_assoc, List.take_append_drop, g3 hb]
    · rw [h] at hs ⊢; simp only at hs ⊢
      obtain ⟨g1, g2, g3⟩ := hs
      refine ⟨by rw [hfn]; exact g1, by rw [g2]; simp, ?_⟩
      rw [htmp, g3, g2]; simp
    · rw [h] at hs ⊢; simp only at hs ⊢
      rw [hfn]; exact hs
  | write c r h =>
    rw [h] at hs; simp only at hs
    obtain ⟨g1, w, g2, g3⟩ := hs
    refine ⟨h0, g1, w, g2, fun hb => ?_⟩
    simp only at hb
    obtain ⟨done, e1, e2⟩ := g3 hb
    refine ⟨done ++ [c], by simp [e1], ?_⟩
    simp only [hb, Bool.false_eq_true, if_false]
    rw [← List.append_assoc, e2]; simp
  | writeFail lost c r h =>
    rw [h] at hs; simp only at hs
    obtain ⟨g1, w, g2, g3⟩ := hs
    exact ⟨h0, g1, w, g2, fun hb => by simp at hb⟩
  | writeThrow r h hb =>
    rw [h] at hs; simp only at hs
    exact ⟨h0, hs.1⟩
  | writeDone h =>
    rw [h] at hs; simp only at hs
    obtain ⟨g1, w, g2, g3⟩ := hs
    refine ⟨h0, g1, w, g2, fun hb => ?_⟩
    obtain ⟨done, e1, e2⟩ := g3 hb
    simp only [List.append_nil] at e1
    rw [e1]; exact e2
  | flushOk h hb =>
    rw [h] at hs; simp only at hs
    obtain ⟨g1, w, g2, g3⟩ := hs
    refine ⟨fun p hp1 hp2 => by simp only [appendTmp]; rw [set_other _ _ hp2]; exact h0 p hp1 hp2, ?_⟩
    refine ⟨by simp only [appendTmp]; rw [set_other _ _ hne.symm]; exact g1, rfl, ?_⟩
    simp only [appendTmp]
    rw [set_same, g2, Option.getD_some, g3 hb]
  | flushFail h =>
    rw [h] at hs; simp only at hs
    exact ⟨h0, hs.1⟩
  | closeOk h hb =>
    rw [h] at hs; simp only at hs
    exact ⟨h0, hs.1, hs.2.2⟩
  | closeFail h =>
    rw [h] at hs; simp only at hs
    exact ⟨h0, hs.1⟩
  | renameOk h =>
    rw [h] at hs; simp only at hs
    refine ⟨fun p hp1 hp2 => by simp only; rw [set_other _ _ hp2, set_other _ _ hp1]; exact h0 p hp1 hp2, ?_, ?_⟩
    · simp only; rw [set_other _ _ hne.symm, set_same]; exact hs.2
    · simp only; rw [set_same]
  | renameFail h =>
    rw [h] at hs; simp only at hs
    exact ⟨h0, hs.1⟩
  | guardOk h =>
    rw [h] at hs; simp only at hs
    refine ⟨fun p hp1 hp2 => by simp only; rw [set_other _ _ hp2]; exact h0 p hp1 hp2, ?_⟩
    simp only; rw [set_other _ _ hne.symm]; exact hs
  | guardFail h =>
    rw [h] at hs; simp only at hs
    exact ⟨h0, hs⟩
  | crash =>
    refine ⟨h0, ?_⟩
    simp only
    cases hpc : s.pc <;> rw [hpc] at hs <;> simp only at hs
    · left; rw [hs]
    · exact Or.inl hs.1
    · exact Or.inl hs.1
    · exact Or.inl hs.1
    · exact Or.inl hs.1
    · exact Or.inr hs.1
    · exact Or.inl hs
    · exact Or.inl hs
    · exact hs

theorem saveInv_reach (n : Names P) (chunks : List (List D)) (fs0 : FS P D) (s : SaveState P D)
    (h : SaveReaches n chunks fs0 s) : SaveInv n chunks fs0 s := by
  induction h with
  | refl => exact ⟨fun _ _ _ => rfl, rfl⟩
  | tail _ hstep ih => exact saveInv_step n chunks fs0 _ _ ih hstep

end fs

end Verif.Store
