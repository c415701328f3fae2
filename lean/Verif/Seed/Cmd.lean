import Verif.Seed.ToolExample
/-!
# C94: the command line of `instantiate`, and where it looks for files
-/

namespace Verif.Seed

open Verif.Text

/-- The options of the program. -/
inductive Arg
  | wilson
  | diag
  | gen
  | param (v : Str)
  | tdir (v : Str)
  deriving DecidableEq

/-- The words of an option. -/
def Arg.text : Arg → List Str
  | .wilson => ["--wilson-only".toList]
  | .diag => ["--diag-seed-only".toList]
  | .gen => ["--generate-temporaries".toList]
  | .param v => ["--param".toList, v]
  | .tdir v => ["--template-dir".toList, v]

def Arg.apply (o : Opts) : Arg → Opts
  | .wilson => { o with wilson := true }
  | .diag => { o with diag := true }
  | .gen => { o with gen := true }
  | .param v => { o with param := v }
  | .tdir v => { o with tdir := v }

theorem ne_wilson : ¬ ("--wilson-only".toList = "-h".toList ∨ "--wilson-only".toList = "--help".toList) := by decide
theorem ne_diag : ¬ ("--diag-seed-only".toList = "-h".toList ∨ "--diag-seed-only".toList = "--help".toList) ∧ "--diag-seed-only".toList ≠ "--wilson-only".toList := by
  decide
theorem ne_gen : ¬ ("--generate-temporaries".toList = "-h".toList ∨ "--generate-temporaries".toList = "--help".toList) ∧
    "--generate-temporaries".toList ≠ "--wilson-only".toList ∧ "--generate-temporaries".toList ≠ "--diag-seed-only".toList := by decide
theorem ne_param : ¬ ("--param".toList = "-h".toList ∨ "--param".toList = "--help".toList) ∧ "--param".toList ≠ "--wilson-only".toList ∧
    "--param".toList ≠ "--diag-seed-only".toList ∧ "--param".toList ≠ "--generate-temporaries".toList := by decide
theorem ne_tdir : ¬ ("--template-dir".toList = "-h".toList ∨ "--template-dir".toList = "--help".toList) ∧ "--template-dir".toList ≠ "--wilson-only".toList ∧
    "--template-dir".toList ≠ "--diag-seed-only".toList ∧ "--template-dir".toList ≠ "--generate-temporaries".toList ∧
    "--template-dir".toList ≠ "--param".toList := by decide

theorem parseOpts_arg (a : Arg) (r : List Str) (o : Opts) : parseOpts (a.text ++ r) o = parseOpts r (a.apply o) := by
  cases a with
  | wilson =>
    show parseOpts ("--wilson-only".toList :: r) o = _
    rw [parseOpts.eq_def]; dsimp only
    rw [if_neg ne_wilson, if_pos rfl]; rfl
  | diag =>
    show parseOpts ("--diag-seed-only".toList :: r) o = _
    rw [parseOpts.eq_def]; dsimp only
    rw [if_neg ne_diag.1, if_neg ne_diag.2, if_pos rfl]; rfl
  | gen =>
    show parseOpts ("--generate-temporaries".toList :: r) o = _
    rw [parseOpts.eq_def]; dsimp only
    rw [if_neg ne_gen.1, if_neg ne_gen.2.1, if_neg ne_gen.2.2, if_pos rfl]; rfl
  | param v =>
    show parseOpts ("--param".toList :: v :: r) o = _
    rw [parseOpts.eq_def]; dsimp only
    rw [if_neg ne_param.1, if_neg ne_param.2.1, if_neg ne_param.2.2.1, if_neg ne_param.2.2.2, if_pos rfl]; rfl
  | tdir v =>
    show parseOpts ("--template-dir".toList :: v :: r) o = _
    rw [parseOpts.eq_def]; dsimp only
    rw [if_neg ne_tdir.1, if_neg ne_tdir.2.1, if_neg ne_tdir.2.2.1, if_neg ne_tdir.2.2.2.1, if_neg ne_tdir.2.2.2.2, if_pos rfl]; rfl

theorem parseOpts_args : ∀ (as : List Arg) (r : List Str) (o : Opts), parseOpts (as.flatMap Arg.text ++ r) o = parseOpts r (as.foldl Arg.apply o)
  | [], _, _ => rfl
  | a :: as, r, o => by
    rw [List.flatMap_cons, List.append_assoc, parseOpts_arg, parseOpts_args as]
    rfl


theorem apply_flags : ∀ (as : List Arg) (o : Opts), (((as.foldl Arg.apply o).wilson = true) ↔ (o.wilson = true ∨ Arg.wilson ∈ as)) ∧
    (((as.foldl Arg.apply o).diag = true) ↔ (o.diag = true ∨ Arg.diag ∈ as)) ∧ (((as.foldl Arg.apply o).gen = true) ↔ (o.gen = true ∨ Arg.gen ∈ as)) ∧
    (as.foldl Arg.apply o).param = (as.filterMap fun a => match a with | .param v => some v | _ => none).getLastD o.param ∧
    (as.foldl Arg.apply o).tdir = (as.filterMap fun a => match a with | .tdir v => some v | _ => none).getLastD o.tdir
  | [], o => by simp
  | a :: as, o => by
    obtain ⟨h1, h2, h3, h4, h5⟩ := apply_flags as (a.apply o)
    rw [List.foldl_cons, h1, h2, h3, h4, h5]
    cases a <;> simp [Arg.apply, List.filterMap_cons, List.getLastD_cons, -List.getLastD_eq_getLast?]

variable {K : Type} [Field K] [LinearOrder K]

/-- **C94.** A command line of known options, in any order and number: the switches count if they occur, of the file names the last one counts; two
modes at once are refused. -/
theorem command_line (W : World K) (as : List Arg) (fs : FS) : ∃ o : Opts,
    (o.gen = true ↔ Arg.gen ∈ as) ∧
    o.param = (as.filterMap fun a => match a with | .param v => some v | _ => none).getLastD "param".toList ∧
    o.tdir = (as.filterMap fun a => match a with | .tdir v => some v | _ => none).getLastD "template".toList ∧
    (Arg.wilson ∈ as → Arg.diag ∈ as → main W (as.flatMap Arg.text) fs = ([], .failure)) ∧
    (Arg.wilson ∈ as → Arg.diag ∉ as → main W (as.flatMap Arg.text) fs = wilsonOnly W o fs) ∧
    (Arg.wilson ∉ as → Arg.diag ∈ as → main W (as.flatMap Arg.text) fs = (diagSeed W o fs).exit) ∧
    (Arg.wilson ∉ as → Arg.diag ∉ as → main W (as.flatMap Arg.text) fs = (full W o fs).exit) := by
  obtain ⟨h1, h2, h3, h4, h5⟩ := apply_flags as {}
  have hp := parseOpts_args as [] {}
  rw [List.append_nil] at hp
  have hm : ∀ o, as.foldl Arg.apply {} = o → main W (as.flatMap Arg.text) fs = if o.wilson ∧ o.diag then ([], .failure)
    else if o.wilson then wilsonOnly W o fs
    else if o.diag then (diagSeed W o fs).exit
    else (full W o fs).exit := by
    intro o ho
    unfold main
    rw [hp, ho]
    rfl
  simp only [Bool.false_eq_true, false_or] at h1 h2 h3
  refine ⟨as.foldl Arg.apply {}, h3, h4, h5, fun a b => ?_, fun a b => ?_, fun a b => ?_, fun a b => ?_⟩
  · rw [hm _ rfl, if_pos ⟨h1.mpr a, h2.mpr b⟩]
  · rw [hm _ rfl, if_neg (fun h => b (h2.mp h.2)), if_pos (h1.mpr a)]
  · rw [hm _ rfl, if_neg (fun h => a (h1.mp h.1)), if_neg (fun h => a (h1.mp h)), if_pos (h2.mpr b)]
  · rw [hm _ rfl, if_neg (fun h => a (h1.mp h.1)), if_neg (fun h => a (h1.mp h)), if_neg (fun h => b (h2.mp h))]

/-- **C94.** A request for help after known options, whatever follows it; and a word that is no option. -/
theorem help_or_refused (W : World K) (as : List Arg) (a : Str) (r : List Str) (fs : FS) :
    (a = "-h".toList ∨ a = "--help".toList → main W (as.flatMap Arg.text ++ a :: r) fs = ([], .help)) ∧
    (a ∉ ["-h".toList, "--help".toList, "--wilson-only".toList, "--diag-seed-only".toList, "--generate-temporaries".toList, "--param".toList,
      "--template-dir".toList] → main W (as.flatMap Arg.text ++ a :: r) fs = ([], .failure)) := by
  have hp := parseOpts_args as (a :: r) {}
  constructor
  · intro h
    unfold main
    rw [hp, parseOpts.eq_def]
    dsimp only
    rw [if_pos h]
  · intro h
    simp only [List.mem_cons, List.not_mem_nil, or_false, not_or] at h
    obtain ⟨h1, h2, h3, h4, h5, h6, h7⟩ := h
    unfold main
    rw [hp, parseOpts.eq_def]
    dsimp only
    rw [if_neg (not_or.mpr ⟨h1, h2⟩), if_neg h3, if_neg h4, if_neg h5, if_neg h6, if_neg h7]

/-- **C94.** Files of the template: an absolute name is used as it is; otherwise the file in the directory of the template comes before the one in the
current directory. -/
theorem template_first (fs : FS) (tdir fn : Str) :
    (fn.head? = some '/' → lookup fs tdir fn = fs fn) ∧
    (fn.head? ≠ some '/' → ∀ t, fs (tdir ++ '/' :: fn) = some t → lookup fs tdir fn = some t) ∧
    (fs (tdir ++ '/' :: fn) = none → lookup fs tdir fn = fs fn) := by
  unfold lookup
  refine ⟨fun h => by rw [if_pos h], fun h t ht => by rw [if_neg h, ht], fun h => ?_⟩
  by_cases h' : fn.head? = some '/'
  · rw [if_pos h']
  · rw [if_neg h', h]

/-- Both kinds of file are present. -/
example : let fs : FS := fun n => if n = "t/ham".toList then some "1".toList else if n = "ham".toList then some "2".toList else none
    lookup fs "t".toList "ham".toList = some "1".toList ∧ lookup fs "s".toList "ham".toList = some "2".toList := by decide

end Verif.Seed
