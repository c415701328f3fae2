import Verif.Seed.Tool
import Verif.Seed.Example
import Verif.Param.ToolProps
/-!
# C94: what the program `instantiate` does to files
-/

namespace Verif.Seed

open Verif.Text
open Verif.DataFile (Par)

/-! ## Specification -/

/-- The parameter file has a section with this name. -/
def HasSection (text sec : Str) : Prop := sec ≠ [] ∧ ∃ l ∈ Param.lines text, strip l = '[' :: (sec ++ [']'])

/-- The names that the program regards as temporary: a list of names, one for every section of the parameter file, and all names with two
prefixes. -/
def Temporary (param text n : Str) : Prop :=
  n ∈ ["xi.dat", "zeta.dat", "theta.dat", "xi1.dat", "zeta1.dat", "theta1.dat", "val", "vec", "mat", "mat.res", "ham", "param.param", "param.dmft",
    "param.extra", "solverlog", "solverlogneg"].map String.toList ∨
  (∃ sec, HasSection text sec ∧ n = param ++ '.' :: sec) ∨ "vec.".toList <+: n ∨ "ham.".toList <+: n

/-- The files after an interruption: between two operations, within a write (a part of the text is in the file), or within the
removal of several files (some are removed). -/
inductive Crash (ops : List Op) (fs : FS) : FS → Prop
  | between {p r} : ops = p ++ r → Crash ops fs (runOps p fs)
  | writing {p fn t r t'} : ops = p ++ .write fn t :: r → t' <+: t → Crash ops fs (runOps (p ++ [.write fn t']) fs)
  | removing {p x r fs'} : ops = p ++ .removePre x :: r →
      (∀ n, fs' n = runOps p fs n ∨ fs' n = runOps (p ++ [.removePre x]) fs n) → Crash ops fs fs'

theorem Crash.done (ops : List Op) (fs : FS) : Crash ops fs (runOps ops fs) := .between (r := []) (by simp)

/-! ## Operations -/

/-- A property of the contents of one file that all operations on it keep. -/
theorem run_inv {n : Str} {Q : Option Str → Prop} : ∀ (ops : List Op) {fs : FS}, Q (fs n) → (∀ t, Op.write n t ∈ ops → Q (some t)) →
    (Op.remove n ∈ ops → Q none) → (∀ x, Op.removePre x ∈ ops → x <+: n → '/' ∉ n → Q none) → Q (runOps ops fs n) := by
  intro ops
  induction ops with
  | nil => intro fs h _ _ _; exact h
  | cons op ops ih =>
    intro fs h0 hw hr hp
    refine ih (fs := op.run fs) ?_ (fun t h => hw t (by simp [h])) (fun h => hr (by simp [h])) (fun x h => hp x (by simp [h]))
    cases op with
    | write fn t =>
      show Q (if n = fn then some t else fs n)
      split
      · rename_i e; subst e; exact hw t (by simp)
      · exact h0
    | remove fn =>
      show Q (if n = fn then none else fs n)
      split
      · rename_i e; subst e; exact hr (by simp)
      · exact h0
    | removePre x =>
      show Q (if x.isPrefixOf n ∧ '/' ∉ n then none else fs n)
      split
      · rename_i e; exact hp x (by simp) (List.isPrefixOf_iff_prefix.1 e.1) e.2
      · exact h0

theorem crash_inv {ops : List Op} {fs fs' : FS} (hc : Crash ops fs fs') {n : Str} {Q : Option Str → Prop} (h0 : Q (fs n))
    (hw : ∀ t, Op.write n t ∈ ops → ∀ t', t' <+: t → Q (some t')) (hr : Op.remove n ∈ ops → Q none)
    (hp : ∀ x, Op.removePre x ∈ ops → x <+: n → '/' ∉ n → Q none) : Q (fs' n) := by
  cases hc with
  | @between p r e =>
    subst e
    exact run_inv p h0 (fun t h => hw t (by simp [h]) t (List.prefix_refl _)) (fun h => hr (by simp [h])) (fun x h => hp x (by simp [h]))
  | @writing p fn t r t' e ht =>
    subst e
    refine run_inv _ h0 ?_ (fun h => hr (by simp at h; simp [h])) (fun x h => hp x (by simp at h; simp [h]))
    · intro s hs
      rcases List.mem_append.1 hs with hs | hs
      · exact hw s (by simp [hs]) s (List.prefix_refl _)
      · simp at hs
        obtain ⟨rfl, rfl⟩ := hs
        exact hw t (by simp) _ ht
  | @removing p x r fs' e h =>
    subst e
    rcases h n with h | h <;> rw [h]
    · exact run_inv p h0 (fun t h => hw t (by simp [h]) t (List.prefix_refl _)) (fun h => hr (by simp [h])) (fun x h => hp x (by simp [h]))
    · refine run_inv _ h0 (fun t h => hw t ?_ t (List.prefix_refl _)) (fun h => hr ?_) (fun y h => hp y ?_)
      · simp at h; simp [h]
      · simp at h; simp [h]
      · simp at h; rcases h with h | h <;> simp [h]

/-! ## Sections of the parameter file -/

theorem newSection_spec (sec l : Str) : newSection sec l = sec ∨ strip l = '[' :: (newSection sec l ++ [']']) := by
  unfold newSection
  dsimp only
  generalize strip l = t
  split
  · rename_i h
    right
    obtain ⟨h1, h2, h3⟩ := h
    cases t with
    | nil => simp at h2
    | cons c t =>
      simp at h2
      subst h2
      have hne : t ≠ [] := by rintro rfl; simp at h1
      rw [List.getLast?_cons_of_ne_nil hne] at h3
      have := List.dropLast_concat_getLast hne
      rw [List.getLast?_eq_some_getLast hne, Option.some.injEq] at h3
      rw [h3] at this
      show _ = '[' :: (((('[' :: t).drop 1).dropLast) ++ [']'])
      rw [List.drop_one, List.tail_cons, this]
  · exact Or.inl rfl

theorem pushLine_keys {s l : Str} : ∀ {L : List (Str × List Str)} {e : Str × List Str}, e ∈ pushLine s l L → e.1 = s ∨ ∃ e' ∈ L, e'.1 = e.1
  | [], e, h => by simp [pushLine] at h; left; rw [h]
  | (a, ls) :: r, e, h => by
    unfold pushLine at h
    split at h
    · rename_i ha
      rcases List.mem_cons.1 h with h | h
      · left; rw [h]; exact ha
      · exact Or.inr ⟨e, by simp [h], rfl⟩
    · rcases List.mem_cons.1 h with h | h
      · exact Or.inr ⟨e, by simp [h], rfl⟩
      · rcases pushLine_keys h with h | ⟨e', h1, h2⟩
        · exact Or.inl h
        · exact Or.inr ⟨e', by simp [h1], h2⟩

theorem secLoop_keys {Ok : Str → Prop} : ∀ (ls : List Str) (sec : Str) (s : Secs), (∀ e ∈ s.lines, Ok e.1) → (sec ≠ [] → Ok sec) →
    (∀ l ∈ ls, ∀ x, x ≠ [] → strip l = '[' :: (x ++ [']']) → Ok x) → ∀ e ∈ (secLoop ls sec s).lines, Ok e.1 := by
  intro ls
  induction ls with
  | nil => intro sec s h _ _; exact h
  | cons l ls ih =>
    intro sec s h hsec hl
    unfold secLoop
    dsimp only
    have hl' : ∀ l ∈ ls, ∀ x, x ≠ [] → strip l = '[' :: (x ++ [']']) → Ok x := fun y hy => hl y (by simp [hy])
    have hnew : newSection sec l ≠ [] → Ok (newSection sec l) := by
      intro hn
      rcases newSection_spec sec l with e | e
      · rw [e] at hn ⊢; exact hsec hn
      · exact hl l (by simp) _ hn e
    split
    · exact ih _ _ h hnew hl'
    · rename_i hne
      have hpush : ∀ e ∈ pushLine (newSection sec l) l s.lines, Ok e.1 := by
        intro e he
        rcases pushLine_keys he with h1 | ⟨e', h1, h2⟩
        · rw [h1]; exact hnew hne
        · rw [← h2]; exact h e' h1
      split
      · exact ih _ _ hpush hnew hl'
      · split
        · exact ih _ _ hpush hnew hl'
        · exact ih _ _ hpush hnew hl'

theorem sections_keys {text : Str} {e : Str × List Str} (h : e ∈ (sections text).lines) : HasSection text e.1 :=
  secLoop_keys (Ok := HasSection text) (Param.lines text) [] {} (by simp) (by simp) (fun l hl x hx he => ⟨hx, l, hl, he⟩) e h

/-! ## Which files the parts of the program touch -/

/-- The operation writes a temporary file. -/
def TempWrite (param text : Str) (op : Op) : Prop := ∃ fn t, op = .write fn t ∧ Temporary param text fn

theorem temporary_ne_data {param text : Str} : ¬ Temporary param text "data".toList := by
  rintro (h | ⟨sec, -, h⟩ | h | h)
  · exact absurd h (by decide)
  · have : '.' ∈ "data".toList := by rw [h]; simp
    exact absurd this (by decide)
  · exact absurd h (by decide)
  · exact absurd h (by decide)

theorem sectionWrites_temp {param text : Str} : ∀ op ∈ sectionWrites param (sections text), TempWrite param text op := by
  intro op h
  obtain ⟨e, he, rfl⟩ := List.mem_map.1 h
  exact ⟨_, _, rfl, Or.inr (Or.inl ⟨e.1, sections_keys he, rfl⟩)⟩

section
variable {K : Type} [Field K] [LinearOrder K] {param text : Str}

theorem chanWrites_temp (W : World K) (c : Chan K) : ∀ op ∈ chanWrites W c, TempWrite param text op := by
  intro op h
  simp only [chanWrites, List.mem_cons, List.not_mem_nil, or_false] at h
  rcases h with rfl | rfl | rfl
  · exact ⟨_, _, rfl, Or.inl (by decide)⟩
  · exact ⟨_, _, rfl, Or.inl (by decide)⟩
  · exact ⟨_, _, rfl, Or.inl (by decide)⟩

theorem subFiles_temp (W : World K) (C : Ctx K) (fac : K) (q z d : Str) : ∀ op ∈ subFiles W C fac q z d, TempWrite param text op := by
  intro op h
  unfold subFiles at h
  split at h
  · split at h
    · simp at h
    · split at h
      · simp at h
      · split at h
        · dsimp only at h
          rcases List.mem_append.1 h with h | h
          · simp only [List.mem_cons, List.not_mem_nil, or_false] at h
            rcases h with rfl | rfl
            · exact ⟨_, _, rfl, Or.inr (Or.inr (Or.inr (List.prefix_append _ _)))⟩
            · exact ⟨_, _, rfl, Or.inl (by decide)⟩
          · split at h
            · simp at h
            · simp only [List.mem_cons, List.not_mem_nil, or_false] at h
              rcases h with rfl | rfl | rfl
              · exact ⟨_, _, rfl, Or.inl (by decide)⟩
              · exact ⟨_, _, rfl, Or.inl (by decide)⟩
              · exact ⟨_, _, rfl, Or.inr (Or.inr (Or.inl (List.prefix_append _ _)))⟩
        · simp at h
  · simp at h

theorem seedFiles_temp (W : World K) (C : Ctx K) : ∀ (n : Nat) (fac : Option K) (done : List (Sub K)) (s : St K),
    ∀ op ∈ seedFiles W C n fac done s, TempWrite param text op := by
  intro n
  induction n with
  | zero => intro _ _ _ op h; simp [seedFiles] at h
  | succ n ih =>
    intro fac done s op h
    unfold seedFiles at h
    dsimp only at h
    split at h
    · split at h
      · simp at h
      · rcases List.mem_append.1 h with h | h
        · exact subFiles_temp W C _ _ _ _ op h
        · split at h
          · simp at h
          · exact ih _ _ _ op h
    · simp at h

theorem templateFiles_temp (W : World K) (C : Ctx K) (t : Str) : ∀ op ∈ templateFiles W C t, TempWrite param text op := by
  intro op h
  unfold templateFiles at h
  split at h
  · simp at h
  · split at h
    · simp at h
    · split at h
      · exact seedFiles_temp W C _ _ _ _ op h
      · simp at h

/-- Removals: of temporary files only. -/
def TempRemove (param text : Str) (op : Op) : Prop :=
  (∃ fn, op = .remove fn ∧ Temporary param text fn) ∨ op = .removePre "vec.".toList ∨ op = .removePre "ham.".toList

theorem cleanup_temp : ∀ op ∈ cleanup param (sections text), TempRemove param text op := by
  intro op h
  unfold cleanup at h
  rcases List.mem_append.1 h with h | h
  · obtain ⟨n, hn, rfl⟩ := List.mem_map.1 h
    exact Or.inl ⟨n, rfl, Or.inl hn⟩
  rcases List.mem_append.1 h with h | h
  · obtain ⟨e, he, rfl⟩ := List.mem_map.1 h
    exact Or.inl ⟨_, rfl, Or.inr (Or.inl ⟨e.1, sections_keys he, rfl⟩)⟩
  · simp only [List.mem_cons, List.not_mem_nil, or_false] at h
    exact Or.inr h

theorem diagSeed_temp (W : World K) (o : Opts) (fs : FS) : ∀ op ∈ (diagSeed W o fs).1, TempWrite o.param ((fs o.param).getD []) op := by
  intro op h
  unfold diagSeed at h
  cases ht : fs o.param with
  | none => rw [ht] at h; simp at h
  | some text =>
    rw [ht] at h
    dsimp only [Option.getD_some] at h ⊢
    split at h
    · split at h
      · rcases List.mem_append.1 h with h | h
        · exact sectionWrites_temp op h
        · exact chanWrites_temp W _ op h
      · rcases List.mem_append.1 h with h | h
        · rcases List.mem_append.1 h with h | h
          · exact sectionWrites_temp op h
          · exact chanWrites_temp W _ op h
        · exact templateFiles_temp W _ _ op h
    · exact sectionWrites_temp op h

/-- What is done in the full mode before the temporary files are removed. -/
theorem fullBody_spec (W : World K) (o : Opts) (fs : FS) : ∃ w, (∀ op ∈ w, TempWrite o.param text op) ∧ (o.gen = false → w = []) ∧
    ((fullBody W o (sections text) fs = (w, none)) ∨ ∃ fs1 P nmax c t out e, fullBody W o (sections text) fs = (w ++ [.write "data".toList out], some e) ∧
      (o.gen = false → fs1 = fs) ∧ W.par (if o.gen then runOps (sectionWrites o.param (sections text)) fs else fs) o.param = some P ∧
      lookup fs1 o.tdir "data.in".toList = some t ∧ instantiate (ctx W P nmax (sections text) c fs1 o.tdir) t = some (out, e)) := by
  unfold fullBody
  dsimp only
  have hw0 : ∀ op ∈ (if o.gen = true then sectionWrites o.param (sections text) else []), TempWrite o.param text op := by
    intro op h
    split at h
    · exact sectionWrites_temp op h
    · simp at h
  have he : runOps (if o.gen = true then sectionWrites o.param (sections text) else []) fs =
      if o.gen then runOps (sectionWrites o.param (sections text)) fs else fs := by split <;> rfl
  rw [he]
  split
  · rename_i P c hP hc
    have hw1 : ∀ op ∈ (if o.gen = true then sectionWrites o.param (sections text) else []) ++ (if o.gen = true then chanWrites W c else []),
        TempWrite o.param text op := by
      intro op h
      rcases List.mem_append.1 h with h | h
      · exact hw0 op h
      · split at h
        · exact chanWrites_temp W c op h
        · simp at h
    split
    · rename_i nmax hn hf
      split
      · exact ⟨_, hw1, fun hg => by simp [hg], Or.inl rfl⟩
      · rename_i t ht
        split
        · refine ⟨_, ?_, fun hg => by simp [hg], Or.inl rfl⟩
          intro op h
          rcases List.mem_append.1 h with h | h
          · exact hw1 op h
          · split at h
            · exact templateFiles_temp W _ _ op h
            · simp at h
        · rename_i out e hi
          refine ⟨_, ?_, fun hg => by simp [hg], Or.inr ⟨_, P, nmax, c, t, out, e, rfl, fun hg => by simp [hg, runOps], hP, ht, hi⟩⟩
          intro op h
          rcases List.mem_append.1 h with h | h
          · exact hw1 op h
          · split at h
            · exact templateFiles_temp W _ _ op h
            · simp at h
    · exact ⟨_, hw1, fun hg => by simp [hg], Or.inl rfl⟩
  · exact ⟨_, hw0, fun hg => by simp [hg], Or.inl rfl⟩

/-- All that the program does: it writes temporary files, then possibly `data`, and then removes temporary files. -/
theorem main_spec (W : World K) {args : List Str} {o : Opts} (ho : parseOpts args {} = .run o) (fs : FS) :
    ∃ w c, (∀ op ∈ w, TempWrite o.param ((fs o.param).getD []) op) ∧ (∀ op ∈ c, TempRemove o.param ((fs o.param).getD []) op) ∧
      (o.gen = true ∨ o.wilson = true ∨ o.diag = true → c = []) ∧ (o.gen = false → o.wilson = false → o.diag = false → w = []) ∧
      (((main W args fs).1 = w ++ c ∧ ∀ e, (main W args fs).2 = .energy e → o.diag = true) ∨
        ∃ fs1 P nmax ch t out e, main W args fs = (w ++ .write "data".toList out :: c, .energy e) ∧ o.wilson = false ∧ o.diag = false ∧
          (o.gen = false → fs1 = fs) ∧
          W.par (if o.gen then runOps (sectionWrites o.param (sections ((fs o.param).getD []))) fs else fs) o.param = some P ∧
          lookup fs1 o.tdir "data.in".toList = some t ∧
          instantiate (ctx W P nmax (sections ((fs o.param).getD [])) ch fs1 o.tdir) t = some (out, e)) := by
  unfold main
  rw [ho]
  dsimp only
  split
  · rename_i h
    exact ⟨[], [], by simp, by simp, fun _ => rfl, fun _ _ _ => rfl, Or.inl ⟨rfl, fun e he => h.2⟩⟩
  · rename_i hwd
    split
    · rename_i hw
      unfold wilsonOnly
      split
      · rename_i ch _
        exact ⟨_, [], chanWrites_temp W ch, by simp, fun _ => rfl, fun _ h => by rw [hw] at h; simp at h, Or.inl ⟨by simp, fun e he => nomatch he⟩⟩
      · exact ⟨[], [], by simp, by simp, fun _ => rfl, fun _ _ _ => rfl, Or.inl ⟨rfl, fun e he => nomatch he⟩⟩
    · rename_i hw
      split
      · rename_i hd
        exact ⟨_, [], diagSeed_temp W o fs, by simp, fun _ => rfl, fun _ _ h => by rw [hd] at h; simp at h, Or.inl ⟨by simp [Run.exit], fun _ _ => hd⟩⟩
      · rename_i hd
        have hw' : o.wilson = false := by simpa using hw
        have hd' : o.diag = false := by simpa using hd
        unfold full
        cases ht : fs o.param with
        | none => exact ⟨[], [], by simp, by simp, fun _ => rfl, fun _ _ _ => rfl, Or.inl ⟨rfl, fun e he => nomatch he⟩⟩
        | some text =>
          dsimp only [Option.getD_some]
          obtain ⟨w, h1, h2, h3⟩ := fullBody_spec (text := text) W o fs
          refine ⟨w, if o.gen then [] else cleanup o.param (sections text), h1, ?_, ?_, fun h _ _ => h2 h, ?_⟩
          · intro op hop
            split at hop
            · simp at hop
            · exact cleanup_temp op hop
          · rintro (h | h | h)
            · rw [if_pos h]
            · rw [hw'] at h; simp at h
            · rw [hd'] at h; simp at h
          · rcases h3 with h3 | ⟨fs1, P, nmax, ch, t, out, e, h3, h4⟩
            · left
              rw [h3]
              exact ⟨rfl, fun e he => nomatch he⟩
            · right
              refine ⟨fs1, P, nmax, ch, t, out, e, ?_, hw', hd', h4⟩
              rw [h3]
              simp [Run.exit]

theorem tempRemove_name {param text n : Str} {op : Op} (h : TempRemove param text op) (hn : ¬ Temporary param text n) :
    op ≠ .remove n ∧ ∀ x, op = .removePre x → ¬ x <+: n := by
  rcases h with ⟨fn, rfl, h⟩ | rfl | rfl
  · refine ⟨?_, fun x hx => nomatch hx⟩
    intro e
    injection e with e
    exact hn (e ▸ h)
  · refine ⟨fun e => (by cases e), ?_⟩
    intro x e h
    injection e with e
    exact hn (Or.inr (Or.inr (Or.inl (e ▸ h))))
  · refine ⟨fun e => (by cases e), ?_⟩
    intro x e h
    injection e with e
    exact hn (Or.inr (Or.inr (Or.inr (e ▸ h))))

/-- The operations on one file. -/
theorem main_file (W : World K) {args : List Str} {o : Opts} (ho : parseOpts args {} = .run o) {fs fs' : FS}
    (hc : Crash (main W args fs).1 fs fs') {n : Str} {Q : Option Str → Prop} (h0 : Q (fs n))
    (hw : (o.gen = true ∨ o.wilson = true ∨ o.diag = true) → Temporary o.param ((fs o.param).getD []) n → ∀ t, Q (some t))
    (hr : o.gen = false → o.wilson = false → o.diag = false → Temporary o.param ((fs o.param).getD []) n → Q none)
    (hd : n = "data".toList → ∀ out t', t' <+: out → (∃ e, (main W args fs).2 = .energy e) → o.wilson = false → o.diag = false →
      (∃ fs1 P nmax ch t e, W.par (if o.gen then runOps (sectionWrites o.param (sections ((fs o.param).getD []))) fs else fs) o.param = some P ∧
        (o.gen = false → fs1 = fs) ∧ lookup fs1 o.tdir "data.in".toList = some t ∧
        instantiate (ctx W P nmax (sections ((fs o.param).getD [])) ch fs1 o.tdir) t = some (out, e) ∧ (main W args fs).2 = .energy e ∧
        Op.write "data".toList out ∈ (main W args fs).1) → Q (some t')) :
    Q (fs' n) := by
  obtain ⟨w, c, h1, h2, h3, h4, h5⟩ := main_spec W ho fs
  have hmode : w ≠ [] → (o.gen = true ∨ o.wilson = true ∨ o.diag = true) := by
    intro hne
    by_contra hcon
    simp only [not_or, Bool.not_eq_true] at hcon
    exact hne (h4 hcon.1 hcon.2.1 hcon.2.2)
  have hmode' : c ≠ [] → o.gen = false ∧ o.wilson = false ∧ o.diag = false := by
    intro hne
    refine ⟨?_, ?_, ?_⟩ <;> rw [← Bool.not_eq_true] <;> intro hg
    · exact hne (h3 (Or.inl hg))
    · exact hne (h3 (Or.inr (Or.inl hg)))
    · exact hne (h3 (Or.inr (Or.inr hg)))
  have hwt : ∀ t, Op.write n t ∈ w → ∀ t', Q (some t') := by
    intro t ht t'
    obtain ⟨fn, t2, e, hf⟩ := h1 _ ht
    injection e with e1 e2
    exact hw (hmode (List.ne_nil_of_mem ht)) (e1 ▸ hf) t'
  have hct : ∀ t, Op.write n t ∉ c := by
    intro t ht
    rcases h2 _ ht with ⟨fn, e, -⟩ | e | e <;> cases e
  have hcr : Op.remove n ∈ c → Q none := by
    intro hop
    by_cases hT : Temporary o.param ((fs o.param).getD []) n
    · obtain ⟨m1, m2, m3⟩ := hmode' (List.ne_nil_of_mem hop)
      exact hr m1 m2 m3 hT
    · exact absurd rfl (tempRemove_name (h2 _ hop) hT).1
  have hcp : ∀ x, Op.removePre x ∈ c → x <+: n → Q none := by
    intro x hop hx
    by_cases hT : Temporary o.param ((fs o.param).getD []) n
    · obtain ⟨m1, m2, m3⟩ := hmode' (List.ne_nil_of_mem hop)
      exact hr m1 m2 m3 hT
    · exact absurd hx ((tempRemove_name (h2 _ hop) hT).2 x rfl)
  have hwr : Op.remove n ∉ w := by
    intro hop
    obtain ⟨fn, t, e, -⟩ := h1 _ hop
    cases e
  have hwp : ∀ x, Op.removePre x ∉ w := by
    intro x hop
    obtain ⟨fn, t, e, -⟩ := h1 _ hop
    cases e
  rcases h5 with ⟨h5, -⟩ | ⟨fs1, P, nmax, ch, t, out, e, h5, g1, g2, g3, g4, g5, g6⟩
  · rw [h5] at hc
    refine crash_inv hc h0 ?_ ?_ ?_
    · intro t ht t' _
      rcases List.mem_append.1 ht with ht | ht
      · exact hwt t ht t'
      · exact absurd ht (hct t)
    · intro h
      rcases List.mem_append.1 h with h | h
      · exact absurd h hwr
      · exact hcr h
    · intro x h hx _
      rcases List.mem_append.1 h with h | h
      · exact absurd h (hwp x)
      · exact hcp x h hx
  · have hex : (main W args fs).2 = .energy e := by rw [h5]
    have hmem : Op.write "data".toList out ∈ (main W args fs).1 := by rw [h5]; simp
    rw [show (main W args fs).1 = w ++ .write "data".toList out :: c by rw [h5]] at hc
    refine crash_inv hc h0 ?_ ?_ ?_
    · intro t2 ht t' hp
      rcases List.mem_append.1 ht with ht | ht
      · exact hwt t2 ht t'
      · rcases List.mem_cons.1 ht with ht | ht
        · injection ht with e1 e2
          subst e2
          exact hd e1 t2 t' hp ⟨e, hex⟩ g1 g2 ⟨fs1, P, nmax, ch, t, e, g4, g3, g5, g6, hex, hmem⟩
        · exact absurd ht (hct t2)
    · intro h
      rcases List.mem_append.1 h with h | h
      · exact absurd h hwr
      · rcases List.mem_cons.1 h with h | h
        · cases h
        · exact hcr h
    · intro x h hx _
      rcases List.mem_append.1 h with h | h
      · exact absurd h (hwp x)
      · rcases List.mem_cons.1 h with h | h
        · cases h
        · exact hcp x h hx

/-! ## Theorems -/

/-- **C94.** A wrong command line, or a request for help: nothing is written or removed. -/
theorem no_run_no_effect (W : World K) {args : List Str} (h : ∀ o, parseOpts args {} ≠ .run o) (fs : FS) :
    (main W args fs).1 = [] ∧ ∀ e, (main W args fs).2 ≠ .energy e := by
  unfold main
  cases hp : parseOpts args {} with
  | help => exact ⟨rfl, fun e h => nomatch h⟩
  | bad => exact ⟨rfl, fun e h => nomatch h⟩
  | run o => exact absurd hp (h o)

/-- **C94.** At every point of the execution, files other than `data` and the temporary ones are as they were before. -/
theorem others_untouched (W : World K) {args : List Str} {o : Opts} (ho : parseOpts args {} = .run o) {fs fs' : FS}
    (hc : Crash (main W args fs).1 fs fs') {n : Str} (hd : n ≠ "data".toList) (ht : ¬ Temporary o.param ((fs o.param).getD []) n) :
    fs' n = fs n :=
  main_file W ho hc (Q := fun x => x = fs n) rfl (fun _ h => absurd h ht) (fun _ _ _ h => absurd h ht) (fun h => absurd h hd)

/-- **C94.** The file `data` is not touched unless the full mode succeeds. -/
theorem data_kept (W : World K) {args : List Str} {o : Opts} (ho : parseOpts args {} = .run o) {fs fs' : FS}
    (hc : Crash (main W args fs).1 fs fs') (h : o.wilson = true ∨ o.diag = true ∨ ∀ e, (main W args fs).2 ≠ .energy e) :
    fs' "data".toList = fs "data".toList := by
  refine main_file W ho hc (Q := fun x => x = fs "data".toList) rfl (fun _ h => absurd h temporary_ne_data) (fun _ _ _ h => absurd h temporary_ne_data) ?_
  rintro - out t' - ⟨e, he⟩ h1 h2 -
  rcases h with h | h | h
  · rw [h1] at h; simp at h
  · rw [h2] at h; simp at h
  · exact absurd he (h e)

/-- **C94.** After success of the full mode `data` is a text that the main program accepts; at every point before it is the old file or a
beginning of this text. -/
theorem data_complete (W : World K) {args : List Str} {o : Opts} (ho : parseOpts args {} = .run o) {fs : FS} (h1 : o.wilson = false)
    (h2 : o.diag = false) {e : K} (he : (main W args fs).2 = .energy e) :
    ∃ out P D, W.par (if o.gen then runOps (sectionWrites o.param (sections ((fs o.param).getD []))) fs else fs) o.param = some P ∧
      DataFile.read P out = some D ∧ runOps (main W args fs).1 fs "data".toList = some out ∧
      ∀ fs', Crash (main W args fs).1 fs fs' → fs' "data".toList = fs "data".toList ∨ ∃ t', t' <+: out ∧ fs' "data".toList = some t' := by
  obtain ⟨w, c, a1, a2, a3, a4, a5⟩ := main_spec W ho fs
  rcases a5 with ⟨-, a5⟩ | ⟨fs1, P, nmax, ch, t, out, e', a5, g1, g2, g3, g4, g5, g6⟩
  · have := a5 e he
    rw [h2] at this
    simp at this
  · have hread : ∃ D, DataFile.read P out = some D := by
      unfold instantiate at g6
      split at g6
      · cases g6
      · split at g6
        · cases g6
        · rename_i D hD
          injection g6 with g6
          injection g6 with g6 _
          subst g6
          exact ⟨D, hD⟩
    obtain ⟨D, hD⟩ := hread
    refine ⟨out, P, D, g4, hD, ?_, ?_⟩
    · rw [a5]
      have : w ++ Op.write "data".toList out :: c = (w ++ [Op.write "data".toList out]) ++ c := by simp
      dsimp only
      rw [this]
      unfold runOps
      rw [List.foldl_append, List.foldl_append]
      refine run_inv (Q := fun x => x = some out) c ?_ ?_ ?_ ?_
      · simp [Op.run]
      · intro t ht
        rcases a2 _ ht with ⟨fn, e, -⟩ | e | e <;> cases e
      · intro ht
        exact absurd rfl (tempRemove_name (a2 _ ht) temporary_ne_data).1
      · intro x hx hp
        exact absurd hp ((tempRemove_name (a2 _ hx) temporary_ne_data).2 x rfl)
    · intro fs' hc
      refine main_file W ho hc (Q := fun x => x = fs "data".toList ∨ ∃ t', t' <+: out ∧ x = some t') (Or.inl rfl)
        (fun _ h => absurd h temporary_ne_data) (fun _ _ _ h => absurd h temporary_ne_data) ?_
      rintro - out' t' hp - - - ⟨_, _, _, _, _, _, -, -, -, -, -, hm⟩
      rw [a5] at hm
      rcases List.mem_append.1 hm with hm | hm
      · obtain ⟨fn, t2, e2, hf⟩ := a1 _ hm
        injection e2 with e3 e4
        exact absurd (e3 ▸ hf) temporary_ne_data
      · rcases List.mem_cons.1 hm with hm | hm
        · injection hm with _ hm
          subst hm
          exact Or.inr ⟨t', hp, rfl⟩
        · rcases a2 _ hm with ⟨fn, e, -⟩ | e | e <;> cases e

/-- **C94.** Without options on the mode no file but `data` is created or changed: at every point every other file is as before or removed. -/
theorem only_data_created (W : World K) {args : List Str} {o : Opts} (ho : parseOpts args {} = .run o) {fs fs' : FS}
    (hc : Crash (main W args fs).1 fs fs') (hg : o.gen = false) (hw : o.wilson = false) (hd : o.diag = false) {n : Str} (hn : n ≠ "data".toList) :
    fs' n = fs n ∨ fs' n = none ∧ Temporary o.param ((fs o.param).getD []) n := by
  refine main_file W ho hc (Q := fun x => x = fs n ∨ x = none ∧ Temporary o.param ((fs o.param).getD []) n) (Or.inl rfl) ?_
    (fun _ _ _ h => Or.inr ⟨rfl, h⟩) (fun h => absurd h hn)
  rintro (h | h | h)
  · rw [hg] at h; simp at h
  · rw [hw] at h; simp at h
  · rw [hd] at h; simp at h

/-- **C94.** In the other modes no file is removed. -/
theorem nothing_removed (W : World K) {args : List Str} {o : Opts} (ho : parseOpts args {} = .run o) {fs fs' : FS}
    (hc : Crash (main W args fs).1 fs fs') (h : o.gen = true ∨ o.wilson = true ∨ o.diag = true) {n : Str} (hn : (fs n).isSome = true) :
    (fs' n).isSome = true := by
  refine main_file W ho hc (Q := fun x => x.isSome = true) hn (fun _ _ _ => rfl) ?_ (fun _ _ _ _ _ _ _ _ => rfl)
  intro h1 h2 h3
  rw [h1, h2, h3] at h
  simp at h

/-- **C94.** With the default names the parameter file and the files of the template are never touched. -/
theorem input_kept (W : World K) {args : List Str} {o : Opts} (ho : parseOpts args {} = .run o) (hp : o.param = "param".toList) {fs fs' : FS}
    (hc : Crash (main W args fs).1 fs fs') {n : Str} (hn : n = "param".toList ∨ "template/".toList <+: n) : fs' n = fs n := by
  refine others_untouched W ho hc ?_ ?_
  · rintro rfl
    rcases hn with h | h <;> exact absurd h (by decide)
  · rw [hp]
    rcases hn with rfl | ⟨r, rfl⟩
    · rintro (h | ⟨sec, -, h⟩ | h | h)
      · exact absurd h (by decide)
      · have : '.' ∈ "param".toList := by rw [h]; simp
        exact absurd this (by decide)
      · exact absurd h (by decide)
      · exact absurd h (by decide)
    · rintro (h | ⟨sec, -, h⟩ | h | h)
      · obtain ⟨x, hx, e⟩ := List.mem_map.1 h
        have h9 := congrArg (List.take 9) e
        rw [List.take_left' (by decide)] at h9
        revert h9
        clear e
        revert x
        decide
      · have h1 := congrArg List.head? h
        simp at h1
      · obtain ⟨y, e⟩ := h
        have h1 := congrArg List.head? e
        simp at h1
      · obtain ⟨y, e⟩ := h
        have h1 := congrArg List.head? e
        simp at h1

/-- **C94, violated.** The clean-up removes files that the program has not made: here the parameter file itself, whatever is in it and whether or not
the run succeeds. -/
theorem parameter_file_removed (W : World K) (fs : FS) (h : (fs "param.param".toList).isSome = true) :
    runOps (main W ["--param".toList, "param.param".toList] fs).1 fs "param.param".toList = none := by
  obtain ⟨text, ht⟩ := Option.isSome_iff_exists.1 h
  have hp : parseOpts ["--param".toList, "param.param".toList] {} = .run { param := "param.param".toList } := by decide
  unfold main
  rw [hp]
  dsimp only
  rw [if_neg (by simp), if_neg (by simp), if_neg (by simp)]
  unfold full
  dsimp only
  rw [ht]
  dsimp only [Run.exit]
  rw [if_neg (by simp)]
  unfold runOps
  rw [List.foldl_append]
  generalize List.foldl Op.run fs _ = fs2
  unfold cleanup
  rw [List.foldl_append]
  refine run_inv (Q := fun x => x = none) _ ?_ ?_ (fun _ => rfl) (fun _ _ _ _ => rfl)
  · simp only [tempNames, List.map_cons, List.map_nil, List.foldl_cons, List.foldl_nil, Op.run]
    simp
  · intro t ht
    rcases List.mem_append.1 ht with ht | ht
    · obtain ⟨e, -, he⟩ := List.mem_map.1 ht
      cases he
    · simp at ht

/-- **C94, violated.** And all files whose names begin with `vec.` or `ham.`, in every run without options. -/
theorem own_files_removed (W : World K) (fs : FS) (h : (fs "param".toList).isSome = true) {n : Str}
    (hn : "vec.".toList <+: n ∨ "ham.".toList <+: n) (hs : '/' ∉ n) : runOps (main W [] fs).1 fs n = none := by
  obtain ⟨text, ht⟩ := Option.isSome_iff_exists.1 h
  unfold main
  rw [show parseOpts [] {} = .run {} from rfl]
  dsimp only
  rw [if_neg (by simp), if_neg (by simp), if_neg (by simp)]
  unfold full
  dsimp only
  rw [ht]
  dsimp only [Run.exit]
  rw [if_neg (by simp)]
  unfold runOps
  rw [List.foldl_append]
  generalize List.foldl Op.run fs _ = fs2
  unfold cleanup
  rw [List.foldl_append, List.foldl_append]
  simp only [List.foldl_cons, List.foldl_nil, Op.run]
  rcases hn with hn | hn
  · by_cases h2 : "ham.".toList.isPrefixOf n = true ∧ '/' ∉ n
    · rw [if_pos h2]
    · rw [if_neg h2, if_pos ⟨List.isPrefixOf_iff_prefix.2 hn, hs⟩]
  · rw [if_pos ⟨List.isPrefixOf_iff_prefix.2 hn, hs⟩]

variable [IsStrictOrderedRing K]

/-- **C94.** From the command line to the file. With the parameters and coefficients that the main program and the tool for the Wilson chain find, and a
well-formed template, the program succeeds; `data` then contains what belongs to the template, and the energy of the ground state is
returned. If the program is interrupted, `data` is the old file, or the main program does not accept it, or at most a part of the last number is
missing. -/
theorem default_run (W : World K) {args : List Str} {o : Opts} (ho : parseOpts args {} = .run o) (hg : o.gen = false) (hw : o.wilson = false)
    (hd : o.diag = false) {fs : FS} {text v : Str} {P : Par} {c : Chan K} {nmax : Nat} (hpar : fs o.param = some text)
    (hP : W.par fs o.param = some P) (hc : W.chain fs o.param = some [c]) (hv : (sections text).get "param".toList "Nmax".toList = some v)
    (hn : parseSize v = some nmax) (hpol : (sections text).flag "param".toList "polarized".toList = some false) {T : Template K}
    (ht : lookup fs o.tdir "data.in".toList = some T.text) (hT : T.OK (ctx W P nmax (sections text) c fs o.tdir)) {lit : Nat → K → DataFile.Lit}
    (hp : Prints (ctx W P nmax (sections text) c fs o.tdir) lit) :
    ∃ out e D, (main W args fs).2 = .energy e ∧ runOps (main W args fs).1 fs "data".toList = some out ∧ DataFile.read P out = some D ∧
      IsGround T.subs e ∧ IsInstance (ctx W P nmax (sections text) c fs o.tdir) lit T e D ∧
      ∀ fs', P.tricpp = false → Crash (main W args fs).1 fs fs' → fs' "data".toList = fs "data".toList ∨
        ∃ p, fs' "data".toList = some p ∧ p <+: out ∧ (DataFile.read P p = none ∨
          ∃ x, c.2.1[nmax]? = some x ∧ out.length < p.length + ((lit 16 x).text ++ ['\n']).length) := by
  obtain ⟨out, e, D, h1, h2, h3, h4⟩ := instantiate_read hT hp
  have hb : fullBody W o (sections text) fs = ([.write "data".toList out], some e) := by
    unfold fullBody
    dsimp only
    simp only [hg, Bool.false_eq_true, if_false]
    rw [show runOps [] fs = fs from rfl, hP, hc]
    dsimp only
    rw [hv, Option.bind_some, hn, hpol]
    dsimp only
    rw [List.append_nil, show runOps [] fs = fs from rfl, ht]
    dsimp only
    rw [h1]
    rfl
  have hm : main W args fs = ([.write "data".toList out] ++ cleanup o.param (sections text), .energy e) := by
    unfold main
    rw [ho]
    dsimp only
    rw [if_neg (by simp [hw]), if_neg (by simp [hw]), if_neg (by simp [hd])]
    unfold full
    rw [hpar]
    dsimp only
    rw [hb]
    simp only [hg, Bool.false_eq_true, if_false]
    rfl
  have hex : (main W args fs).2 = .energy e := by rw [hm]
  obtain ⟨out', P', D', g1, g2, g3, g4⟩ := data_complete W ho (fs := fs) hw hd hex
  have heq : out' = out := by
    have : runOps (main W args fs).1 fs "data".toList = some out := by
      rw [hm]
      show List.foldl Op.run fs _ _ = _
      rw [List.foldl_append]
      refine run_inv (Q := fun x => x = some out) _ ?_ ?_ ?_ ?_
      · simp [Op.run]
      · intro t ht
        rcases cleanup_temp _ ht with ⟨fn, e, -⟩ | e | e <;> cases e
      · intro ht
        exact absurd rfl (tempRemove_name (cleanup_temp _ ht) temporary_ne_data).1
      · intro x hx hp
        exact absurd hp ((tempRemove_name (cleanup_temp _ hx) temporary_ne_data).2 x rfl)
    rw [g3] at this
    exact Option.some.inj this
  subst heq
  refine ⟨out', e, D, hex, g3, h2, h3, h4, ?_⟩
  intro fs' htri hcr
  rcases g4 fs' hcr with h | ⟨t', ht', h⟩
  · exact Or.inl h
  · refine Or.inr ⟨t', h, ht', ?_⟩
    have hz := hT.zeta
    have hx : c.2.1[nmax]? = some c.2.1[nmax] := List.getElem?_eq_getElem hz
    rcases Nat.lt_or_ge out'.length (t'.length + ((lit 16 c.2.1[nmax]).text ++ ['\n']).length) with hlt | hge
    · exact Or.inr ⟨_, hx, hlt⟩
    · left
      exact interrupted_write_partial hT hp htri h1 hx ht' hge

end

/-! ## C95: the parameter file -/

theorem newSection_ne {name sec l : Str} (hs : sec ≠ name) (hl : strip l ≠ '[' :: (name ++ [']'])) : newSection sec l ≠ name := by
  intro e
  rcases newSection_spec sec l with h | h
  · exact hs (h ▸ e)
  · exact hl (e ▸ h)

theorem get_cons_ne {s : Secs} {a k' v name k : Str} (h : a ≠ name) (L : List (Str × List Str)) :
    Secs.get ⟨L, ((a, k'), v) :: s.values⟩ name k = s.get name k := by
  unfold Secs.get
  rw [List.find?_cons_of_neg]
  simp [h]

/-- Other sections do not matter. -/
theorem secLoop_other {name k : Str} : ∀ (ls : List Str) (sec : Str) (s : Secs), sec ≠ name → (∀ l ∈ ls, strip l ≠ '[' :: (name ++ [']'])) →
    (secLoop ls sec s).get name k = s.get name k := by
  intro ls
  induction ls with
  | nil => intro _ _ _ _; rfl
  | cons l ls ih =>
    intro sec s hs hl
    have hn := newSection_ne hs (hl l (by simp))
    have hl' : ∀ x ∈ ls, strip x ≠ '[' :: (name ++ [']']) := fun x hx => hl x (by simp [hx])
    unfold secLoop
    dsimp only
    split
    · exact ih _ _ hn hl'
    · split
      · exact ih _ _ hn hl'
      · split
        · exact ih _ _ hn hl'
        · rw [ih _ _ hn hl']
          exact get_cons_ne hn _

open Verif.Param in
/-- The section itself: the last setting of every keyword. -/
theorem secLoop_section {name k : Str} (hname : name ≠ []) : ∀ (ls : List Str) (s : Secs) (es : Map), Settings (blockLines ls) es →
    (∀ l ∈ ls, strip l ≠ '[' :: (name ++ [']'])) → (∀ l ∈ ls, (strip l).head? = some '[' → (strip l).getLast? = some ']') →
    (secLoop ls name s).get name k = (lastValue es k).or (s.get name k) := by
  intro ls
  induction ls with
  | nil =>
    intro s es hs _ _
    cases hs
    simp [secLoop, lastValue]
  | cons l ls ih =>
    intro s es hs hl hcl
    have hl' : ∀ x ∈ ls, strip x ≠ '[' :: (name ++ [']']) := fun x hx => hl x (by simp [hx])
    have hcl' : ∀ x ∈ ls, (strip x).head? = some '[' → (strip x).getLast? = some ']' := fun x hx => hcl x (by simp [hx])
    unfold secLoop
    dsimp only
    have hb := blank_strip l
    cases hst : strip l with
    | nil =>
      rw [hst] at hb
      have hns : newSection name l = name := by unfold newSection; rw [hst]; simp
      have : blockLines (l :: ls) = blockLines ls := by simp [blockLines, significant, hb]
      rw [this] at hs
      rw [hns, if_neg hname, if_pos (Or.inl rfl)]
      exact ih _ es hs hl' hcl'
    | cons c r =>
      rw [hst] at hb
      dsimp only at hb
      by_cases h1 : c = '['
      · subst h1
        have hb' : blankOrComment l = false := by rw [hb]; decide
        have : blockLines (l :: ls) = [] := by simp [blockLines, significant, hb', isHeader, hst]
        rw [this] at hs
        cases hs
        have hlast := hcl l (by simp) (by rw [hst]; rfl)
        have hns : newSection name l ≠ name := by
          rcases newSection_spec name l with h | h
          · exfalso
            have hlen : 2 ≤ (strip l).length := by
              rw [hst] at hlast ⊢
              cases r with
              | nil => simp at hlast
              | cons x r => simp
            unfold newSection at h
            dsimp only at h
            rw [if_pos ⟨hlen, by rw [hst]; rfl, hlast⟩] at h
            rcases newSection_spec [] l with h2 | h2
            · unfold newSection at h2
              dsimp only at h2
              rw [if_pos ⟨hlen, by rw [hst]; rfl, hlast⟩, h] at h2
              exact hname h2
            · unfold newSection at h2
              dsimp only at h2
              rw [if_pos ⟨hlen, by rw [hst]; rfl, hlast⟩, h] at h2
              exact hl l (by simp) h2
          · intro e
            rw [e] at h
            exact hl l (by simp) h
        have hk : (lastValue [] k).or (s.get name k) = s.get name k := by simp [lastValue]
        rw [hk]
        split
        · exact secLoop_other _ _ _ hns hl'
        · rw [if_pos (show _ ∨ _ ∨ ('[' :: r).head? = some '[' from Or.inr (Or.inr rfl))]
          exact secLoop_other _ _ _ hns hl'
      · have hns : newSection name l = name := by
          unfold newSection
          rw [hst]
          simp [h1]
        rw [hns, if_neg hname]
        by_cases h2 : c = '#'
        · have hb' : blankOrComment l = true := by rw [hb, h2]; decide
          have : blockLines (l :: ls) = blockLines ls := by simp [blockLines, significant, hb']
          rw [this] at hs
          rw [if_pos (Or.inr (Or.inl (by rw [h2]; rfl)))]
          exact ih _ es hs hl' hcl'
        · rw [if_neg (by simp [h1, h2])]
          have hb' : blankOrComment l = false := by rw [hb]; simpa using h2
          have : blockLines (l :: ls) = l :: blockLines ls := by simp [blockLines, significant, hb', isHeader, hst, h1]
          rw [this] at hs
          cases he : splitEq (c :: r) with
          | none =>
            dsimp only
            cases hs with
            | skip _ _ _ _ hs => exact ih _ es hs hl' hcl'
            | take _ _ _ k v ht _ =>
              obtain ⟨a, b, h1, _⟩ := isSetting_iff.1 ht
              rw [hst, he] at h1
              cases h1
          | some p =>
            obtain ⟨a, b⟩ := p
            dsimp only
            cases hs with
            | skip _ _ _ hn _ => exact absurd (isSetting_iff.2 ⟨a, b, by rw [hst, he], rfl, rfl⟩) (hn _ _)
            | take _ _ es k2 v2 ht hs =>
              obtain ⟨a', b', h1, h2, h3⟩ := isSetting_iff.1 ht
              rw [hst, he] at h1
              simp only [Option.some.injEq, Prod.mk.injEq] at h1
              rw [ih _ es hs hl' hcl', h1.1, h1.2, ← h2, ← h3]
              unfold lastValue Secs.get
              rw [List.reverse_cons, List.find?_append]
              cases es.reverse.find? fun e => decide (e.1 = k) with
              | some e => rfl
              | none => by_cases hk : k2 = k <;> simp [hk]

/-- Lines before the section. -/
theorem secLoop_before {name k : Str} (pre : List Str) (h : Str) (ls : List Str) (hh : strip h = '[' :: (name ++ [']'])) (hname : name ≠ []) :
    ∀ (sec : Str) (s : Secs), sec ≠ name → (∀ l ∈ pre, strip l ≠ '[' :: (name ++ [']'])) → s.get name k = none →
      ∃ s', secLoop (pre ++ h :: ls) sec s = secLoop ls name s' ∧ s'.get name k = none := by
  induction pre with
  | nil =>
    intro sec s _ _ h0
    have hns : newSection sec h = name := by
      unfold newSection
      dsimp only
      rw [hh, if_pos ⟨by simp, rfl, by rw [← List.cons_append, List.getLast?_concat]⟩]
      simp
    rw [List.nil_append, secLoop]
    dsimp only
    rw [hns, if_neg hname, if_pos (Or.inr (Or.inr (by rw [hh]; rfl)))]
    exact ⟨_, rfl, h0⟩
  | cons l pre ih =>
    intro sec s hs hl h0
    have hn := newSection_ne hs (hl l (by simp))
    have hl' : ∀ x ∈ pre, strip x ≠ '[' :: (name ++ [']']) := fun x hx => hl x (by simp [hx])
    rw [List.cons_append, secLoop]
    dsimp only
    split
    · exact ih _ _ hn hl' h0
    · split
      · exact ih _ _ hn hl' h0
      · split
        · exact ih _ _ hn hl' h0
        · refine ih _ _ hn hl' ?_
          rw [← h0]
          exact get_cons_ne hn _

theorem findBlock_split {name : Str} : ∀ {ls r : List Str}, Param.findBlock name ls = some r →
    ∃ pre h, ls = pre ++ h :: r ∧ strip h = '[' :: (name ++ [']']) ∧ ∀ l ∈ pre, strip l ≠ '[' :: (name ++ [']']) := by
  intro ls
  induction ls with
  | nil => intro r h; cases h
  | cons l ls ih =>
    intro r h
    unfold Param.findBlock at h
    have hne : strip l ≠ '[' :: (name ++ [']']) → Param.findBlock name ls = some r → ∃ pre h, l :: ls = pre ++ h :: r ∧
        strip h = '[' :: (name ++ [']']) ∧ ∀ l ∈ pre, strip l ≠ '[' :: (name ++ [']']) := by
      intro h1 h2
      obtain ⟨pre, h, e1, e2, e3⟩ := ih h2
      refine ⟨l :: pre, h, by rw [e1]; rfl, e2, ?_⟩
      intro x hx
      rcases List.mem_cons.1 hx with rfl | hx
      · exact h1
      · exact e3 x hx
    split at h
    · rename_i hb
      refine hne ?_ h
      intro e
      rw [Param.blank_strip, e] at hb
      simp at hb
    · split at h
      · rename_i e
        cases h
        exact ⟨[], l, rfl, e, by simp⟩
      · rename_i e
        exact hne e h

/-- **C95.** If the main program accepts a section of the parameter file, `instantiate` finds the same values in it, provided that the section
occurs only once and all lines that begin with a bracket end with one. -/
theorem same_parameters (file name : Str) (hname : name ≠ []) (m : Param.Map) (h : Param.parser file name = .ok m)
    (hone : ((Param.lines file).filter fun l => strip l = '[' :: (name ++ [']'])).length ≤ 1)
    (hcl : ∀ l ∈ Param.lines file, (strip l).head? = some '[' → (strip l).getLast? = some ']') (k : Str) :
    (sections file).get name k = m.get k := by
  unfold Param.parser at h
  cases hf : Param.findBlock name (Param.lines file) with
  | none => rw [hf] at h; cases h
  | some ls =>
    rw [hf] at h
    dsimp only at h
    obtain ⟨pre, hd, e1, e2, e3⟩ := findBlock_split hf
    have hls : ∀ l ∈ ls, strip l ≠ '[' :: (name ++ [']']) := by
      intro l hl e
      rw [e1, List.filter_append, List.length_append, List.filter_cons_of_pos (by simpa using e2), List.length_cons] at hone
      have : 0 < (ls.filter fun l => decide (strip l = '[' :: (name ++ [']']))).length :=
        List.length_pos_of_mem (List.mem_filter.2 ⟨hl, by simpa using e⟩)
      omega
    unfold sections
    rw [e1]
    obtain ⟨s', g1, g2⟩ := secLoop_before (k := k) pre hd ls e2 hname [] {} (fun e => hname e.symm) e3 rfl
    rw [g1]
    obtain ⟨es, hes⟩ := Param.settings_exist (Param.blockLines ls)
    rw [secLoop_section hname ls s' es hes hls (fun l hl => hcl l (by rw [e1]; simp [hl])), g2, Option.or_none]
    have hp := Param.parseBlock_spec ls es hes
    have hn : (es.map Prod.fst).Nodup := by
      by_contra hn
      obtain ⟨k', _, _, _, h1, _⟩ := hp.2 hn
      rw [h1] at h
      cases h
    rw [hp.1 hn] at h
    injection h with h
    rw [← h]
    have hr : (es.reverse.map Prod.fst).Nodup := by
      rw [List.map_reverse]
      exact List.nodup_reverse.mpr hn
    refine Option.ext fun v => ?_
    rw [Param.get_eq_some es hn, show Param.lastValue es k = Param.Map.get es.reverse k from rfl, Param.get_eq_some _ hr, List.mem_reverse]

/-- **C95, violated.** A section that occurs twice: the main program takes the values of the first one, `instantiate` those of the last one. -/
theorem repeated_section : Param.parser "[param]\nz=1\n[x]\n[param]\nz=2\n".toList "param".toList = .ok [("z".toList, "1".toList)] ∧
    (sections "[param]\nz=1\n[x]\n[param]\nz=2\n".toList).get "param".toList "z".toList = some "2".toList := by decide +kernel

/-- **C95, violated.** A header without its last bracket ends the section for the main program, but not for `instantiate`. -/
theorem open_header : Param.parser "[param]\nz=1\n[extra\nz=2\n".toList "param".toList = .ok [("z".toList, "1".toList)] ∧
    (sections "[param]\nz=1\n[extra\nz=2\n".toList).get "param".toList "z".toList = some "2".toList := by decide +kernel

/-- A keyword that is set twice: the main program stops, `instantiate` takes the last value. -/
example : Param.parser "[param]\nz=1\nz=2".toList "param".toList = .duplicate "z".toList ∧
    (sections "[param]\nz=1\nz=2".toList).get "param".toList "z".toList = some "2".toList := by decide +kernel

/-- A file in the hypotheses of `same_parameters`. -/
example : let f := "# c\n[extra]\nz=7\n[param]\r\n z = 1 \n#z=3\nLambda=2\n[dmft]\nz=5".toList
    Param.parser f "param".toList = .ok [("z".toList, "1".toList), ("Lambda".toList, "2".toList)] ∧
    ((Param.lines f).filter fun l => strip l = '[' :: ("param".toList ++ [']'])).length ≤ 1 ∧
    (∀ l ∈ Param.lines f, (strip l).head? = some '[' → (strip l).getLast? = some ']') := by decide +kernel

end Verif.Seed
