import Verif.Qrun.Props
/-!
# Input that cannot be used, and what becomes of the files
-/

namespace Verif.Qrun
open Verif.Text
open Verif.Cmd (Line given)
open Verif.Tools (FileLine)

/-! ## `tdavg` -/

theorem tdavg_bad_command {pr : ℚ → Str} {fs : Files} {words : List Str} {s : Cmd.Stop} (h : Cmd.tdavg.main words = .error s) :
    tdavg pr fs words = (some (.stop s), fs) := by
  rw [tdavg, h]

/-- **C129, partial.** Whatever happens, `tdavg` changes no file but the one for the result, which is never the file with the data; a command line that is refused changes
nothing. -/
theorem tdavg_others_partial (pr : ℚ → Str) (fs : Files) (words : List Str) :
    (∀ s, Cmd.tdavg.main words = .error s → tdavg pr fs words = (some (.stop s), fs)) ∧
    ∀ o, Cmd.tdavg.main words = .ok o → o.name ≠ resultName o.name ∧ ∀ g, g ≠ resultName o.name → (tdavg pr fs words).2 g = fs g := by
  refine ⟨fun s hs => tdavg_bad_command hs, fun o ho => ⟨out_ne o.name, fun g hg => ?_⟩⟩
  rw [tdavg, ho]
  dsimp only
  rw [out_name]
  cases average (write fs (resultName o.name) []) o.name (refName fs o.ref) with
  | error e => simp only [write, if_neg hg]
  | ok r => simp only [write, if_neg hg]

/-- **Violation.** A run that fails after the command line leaves an empty result: an earlier one is lost. -/
theorem earlier_lost (pr : ℚ → Str) (fs : Files) (words : List Str) (o : Cmd.TdAvg) (ho : Cmd.tdavg.main words = .ok o) (e : Fail)
    (h : (tdavg pr fs words).1 = some e) : (tdavg pr fs words).2 (resultName o.name) = some [] := by
  rw [tdavg, ho] at h ⊢
  dsimp only at h ⊢
  rw [out_name] at h ⊢
  cases ha : average (write fs (resultName o.name) []) o.name (refName fs o.ref) with
  | error e => simp only [write, if_pos]
  | ok r => rw [ha] at h; cases h

/-- For example with the name of a file that does not exist. -/
theorem earlier_lost_missing : let fs : Files := fun g => if g = tdOut then some ['1', ' ', '2', '\n'] else none
    (tdavg prInt fs []).1 = some (.nofile tdDat) ∧ (tdavg prInt fs []).2 tdOut = some [] := by
  constructor <;> decide +kernel

/-- **Violation.** The earlier result as reference: the run always fails, and the reference is lost. -/
theorem reference_destroyed (pr : ℚ → Str) (fs : Files) (l : Line) (h : l.OK ['h', 'v', 'V', 'c']) (hg : given 'h' l.options = false) (name : Str)
    (ho : l.operands = [name, resultName name]) :
    (tdavg pr fs l.words).1 ≠ none ∧ (tdavg pr fs l.words).2 (resultName name) = some [] := by
  obtain ⟨o, h1, h2, h3, -⟩ := names_command (fs := fs) h hg (Or.inr ho)
  have hne : resultName name ≠ [] := by
    unfold resultName
    split
    · simp
    · simp
  have hno : ∀ x, average (write fs (resultName name) []) name (resultName name) ≠ .ok x := by
    intro x
    have hw : write fs (resultName name) [] (resultName name) = some [] := by rw [write, if_pos rfl]
    unfold average
    cases write fs (resultName name) [] name with
    | none => simp
    | some s =>
      dsimp only
      cases hr : Tools.readFiles (lines s) none with
      | none => simp
      | some t =>
        obtain ⟨cols, data, ref⟩ := t
        dsimp only
        rw [if_neg hne, hw]
        dsimp only
        have hfail : Tools.readFiles (lines s) (some (lines [])) = none := by
          have hl : lines [] = [] := rfl
          rw [hl]
          unfold Tools.readFiles at hr ⊢
          cases hl : Tools.tdLoad 0 (lines s) with
          | none => rfl
          | some p =>
            obtain ⟨c, d⟩ := p
            rw [hl] at hr
            simp only [Option.bind_eq_bind, Option.bind_some, Tools.tdLoad, Tools.loadLoop] at hr ⊢
            by_cases h0 : d.length = 0
            · rw [if_pos h0]
            · rw [if_neg h0]
              simp [h0]
        rw [hfail]
        simp
  have hfail : (tdavg pr fs l.words).1 ≠ none := by
    rw [tdavg, h1]
    dsimp only
    rw [out_name, h2, h3]
    cases ha : average (write fs (resultName name) []) name (resultName name) with
    | error e => simp
    | ok x => exact absurd ha (hno x)
  refine ⟨hfail, ?_⟩
  obtain ⟨e, he⟩ := Option.ne_none_iff_exists'.1 hfail
  have := earlier_lost pr fs l.words o h1 e he
  rwa [h2] at this

/-- **Violation.** A file `td-ref.dat` that happens to be there is subtracted from data with any name, though it was not asked for. -/
theorem reference_unasked : let fs : Files := fun g => if g = ['a'] then some ['1', ' ', '5', '\n'] else if g = tdRef then some ['1', ' ', '2', '\n'] else none
    (tdavg prInt fs [['a']]).2 (resultName ['a']) = some ['1', ' ', '3', ' ', '\n'] ∧
    (tdavg prInt fs [['a'], []]).2 (resultName ['a']) = some ['1', ' ', '5', ' ', '\n'] := by
  constructor <;> decide +kernel

/-- **Violation.** Words that are not numbers count as zero: here the names of the columns. -/
theorem words_accepted : let fs : Files := fun g => if g = tdDat then some ['T', ' ', 'S', '\n', '1', ' ', '5', '\n'] else none
    (tdavg prInt fs []).1 = none ∧ (tdavg prInt fs []).2 tdOut = some ['0', ' ', '0', ' ', '\n', '1', ' ', '5', ' ', '\n'] := by
  constructor <;> decide +kernel

theorem loadLoop_blank (ls : List (FileLine ℚ)) (h : FileLine.data [] ∈ ls) (cols : ℕ) (acc : List (Tools.TdBlock ℚ)) (cur : Tools.TdBlock ℚ) :
    Tools.loadLoop cols acc cur ls = none := by
  induction ls generalizing cols acc cur with
  | nil => simp at h
  | cons l ls ih =>
    cases l with
    | comment =>
      rw [Tools.loadLoop]
      exact ih (by simpa using h) _ _ _
    | data v =>
      cases v with
      | nil => rw [Tools.loadLoop]
      | cons T vals =>
        have h' : FileLine.data [] ∈ ls := by simpa using h
        rw [Tools.loadLoop]
        split
        · exact ih h' _ _ _
        · split
          · rfl
          · exact ih h' _ _ _

theorem lineOf_blank (l : Str) (h : Table.Plain l) : lineOf l = .data [] := by
  have hh : l.head? ≠ some '#' := by
    intro e
    cases l with
    | nil => cases e
    | cons c t =>
      simp only [List.head?_cons, Option.some.injEq] at e
      exact (plain_chars h c (by simp)).1 e
  rw [lineOf, if_neg hh]
  have : Table.fields l = [] := by
    have := Table.fields_blank (Table.plain_blank h) []
    rw [List.append_nil] at this
    rw [Table.fields, this]
    rfl
  rw [this]
  rfl

/-- **C129.** A line without numbers that is not a comment, for instance an empty one between data sets, is always refused. -/
theorem blank_refused (fs : Files) (name ref s ws : Str) (hs : fs name = some s) (h : ws ∈ split '\n' s) (hw : Table.Plain ws) :
    average fs name ref = .error .format := by
  have hl : FileLine.data [] ∈ lines s := by
    rw [lines, ← lineOf_blank ws hw]
    exact List.mem_map_of_mem h
  have : Tools.readFiles (lines s) none = none := by
    unfold Tools.readFiles Tools.tdLoad
    rw [loadLoop_blank _ hl]
    rfl
  rw [average, hs]
  dsimp only
  rw [this]

example : [] ∈ split '\n' ['1', ' ', '2', '\n', '\n', '1', ' ', '3', '\n'] := by decide

/-! ## `kk` -/

/-- **C129, partial.** `kk` changes no file but the second one; if the first cannot be opened it changes nothing, and so with any other number of names. -/
theorem kk_others_partial (interp : Kk.Table → (ℝ → ℝ) × (ℝ → ℝ)) (pr : ℝ → Str) (fs : Files) (stdin : Str) :
    (∀ a b, fs a = none → (kk interp pr fs stdin [a, b]).status = .nofile ∧ (kk interp pr fs stdin [a, b]).files = fs) ∧
    (∀ a b g, g ≠ b → (kk interp pr fs stdin [a, b]).files g = fs g) ∧
    ∀ words, words.length ≠ 2 → (kk interp pr fs stdin words).files = fs := by
  refine ⟨fun a b h => ?_, fun a b g hg => ?_, fun words hw => ?_⟩
  · unfold kk
    dsimp only
    rw [if_pos (by simp [h])]
    exact ⟨rfl, rfl⟩
  · unfold kk
    dsimp only
    split
    · rfl
    · cases Kk.program interp (table ((write fs b [] a).getD [])) with
      | error e => simp only [write, if_neg hg]
      | ok re => simp only [write, if_neg hg]
  · unfold kk
    split
    · split
      · rfl
      · split
        · cases Kk.program interp (table stdin) <;> rfl
        · rfl
    · simp at hw
    · rfl

/-- **Violation.** If the data cannot be used the output file is left empty, whatever was in it. -/
theorem kk_earlier_lost (interp : Kk.Table → (ℝ → ℝ) × (ℝ → ℝ)) (pr : ℝ → Str) (fs : Files) (stdin a b : Str) (e : Kk.Err)
    (h : (kk interp pr fs stdin [a, b]).status = .bad e) : (kk interp pr fs stdin [a, b]).files b = some [] := by
  unfold kk at h ⊢
  dsimp only at h ⊢
  split at h
  · cases h
  · rename_i hn
    rw [if_neg hn]
    cases hp : Kk.program interp (table ((write fs b [] a).getD [])) with
    | error e' => simp only [write, if_pos]
    | ok re => rw [hp] at h; cases h

/-- **Violation.** With the same name twice the data are lost: the file is emptied before it is read. -/
theorem kk_same_file (interp : Kk.Table → (ℝ → ℝ) × (ℝ → ℝ)) (pr : ℝ → Str) (fs : Files) (stdin a : Str) (h : fs a ≠ none) :
    (kk interp pr fs stdin [a, a]).status = .bad .empty ∧ (kk interp pr fs stdin [a, a]).files a = some [] := by
  have hs : (kk interp pr fs stdin [a, a]).status = .bad .empty := by
    unfold kk
    dsimp only
    rw [if_neg (by simpa using h)]
    have : Kk.program interp (table ((write fs a [] a).getD [])) = .error .empty := by
      have ht : table ((write fs a [] a).getD []) = [] := by
        rw [write, if_pos rfl]
        simp only [Option.getD_some, table]
        decide
      rw [ht, Kk.program, Kk.init, if_pos rfl]
    rw [this]
  exact ⟨hs, kk_earlier_lost interp pr fs stdin a a _ hs⟩

/-! ## `integ` -/

open Classical in
/-- **C129.** `integ` gives a number only for a table with at least five points, no argument twice. -/
theorem integ_refuses (interp : Kk.Table → ℝ → ℝ) (fs : Files) (words : List Str) (v : ℝ) (h : integ interp fs words = .ok v) :
    ∃ o name s, Cmd.integ.main words = .ok (o, name) ∧ fs name = some s ∧ 5 ≤ (table s).length ∧ ((table s).map Prod.fst).Nodup := by
  unfold integ at h
  cases hc : Cmd.integ.main words with
  | error e => rw [hc] at h; cases h
  | ok r =>
    obtain ⟨o, name⟩ := r
    rw [hc] at h
    dsimp only at h
    cases hf : fs name with
    | none => rw [hf] at h; cases h
    | some s =>
      rw [hf] at h
      dsimp only at h
      by_cases he : table s = []
      · rw [if_pos he] at h; cases h
      rw [if_neg he] at h
      by_cases hsp : Kk.splineOK (((table s).insertionSort Kk.pairLE).map Prod.fst)
      swap
      · rw [if_pos hsp] at h; cases h
      have hp := List.perm_insertionSort Kk.pairLE (table s)
      refine ⟨o, name, s, rfl, hf, ?_, ?_⟩
      · have := hsp.1
        rwa [List.length_map, hp.length_eq] at this
      · rw [← (hp.map Prod.fst).nodup_iff]
        exact hsp.2.imp fun h => h.ne

end Verif.Qrun
