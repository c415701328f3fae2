import Verif.Cmd.Steps
import Verif.Bw.Model
import Verif.Resample.Props
/-!
# Settings of the tools, from their command lines
-/

namespace Verif.Cmd
open Verif.Text
open Verif.DataFile (Lit Dec)

/-! ## Numbers -/

/-- **C122.** A decimal number on the command line has its value. -/
theorem num_lit {x : Lit} (h : x.OK) : num x.text = Table.Dec.value x.val := by
  unfold num
  rw [Table.atof_lit h]

/-- **C122.** So has an integer. -/
theorem int_str (a : Int) (ha : inInt a) : int (intStr a) = a := by
  have h := readInt_intStr a ha [] (by simp [NoDigit])
  rw [List.append_nil] at h
  unfold readInt at h
  unfold int
  dsimp only at h ⊢
  generalize (if (readSign (List.dropWhile isSpace (intStr a))).1 = true then
    -(natValue (List.takeWhile isDigit (readSign (List.dropWhile isSpace (intStr a))).2) : Int)
    else (natValue (List.takeWhile isDigit (readSign (List.dropWhile isSpace (intStr a))).2) : Int)) = v at h ⊢
  simp only [ite_eq_iff, reduceCtorEq, and_false, false_or, Option.some.injEq, Prod.mk.injEq, or_false] at h
  exact h.2.2.1

/-! ## What is not a command line -/

theorem events_good {σ : Type} {step : σ → Char → Str → Except Stop σ} (l : List Ev) (s s' : σ) (h : events step l s = .ok s') : ∀ e ∈ l, e.good := by
  induction l generalizing s with
  | nil => simp
  | cons e l ih =>
    cases e with
    | opt c a =>
      simp only [events] at h
      cases hs : step s c (a.getD []) with
      | error x => rw [hs] at h; simp at h
      | ok s1 =>
        rw [hs] at h
        intro e he
        rcases List.mem_cons.1 he with rfl | he
        · trivial
        · exact ih s1 h e he
    | unknown c => simp [events] at h
    | missing c => simp [events] at h

/-- **C122.** A program begins its work only with a command line that is written as it should be. -/
theorem tool_refuses {σ τ : Type} (t : Tool σ τ) (argv : List Str) (r : τ) (h : t.main argv = .ok r) : ∃ l : Line, l.OK t.opts ∧ l.words = argv := by
  apply getopt_only
  unfold Tool.main at h
  cases he : events t.step (getopt t.opts none argv).1 t.init with
  | error e => rw [he] at h; simp at h
  | ok s => exact events_good _ _ _ he

theorem events_append {σ : Type} (step : σ → Char → Str → Except Stop σ) (l l' : List Ev) (s s' : σ) (h : events step l s = .ok s') :
    events step (l ++ l') s = events step l' s' := by
  induction l generalizing s with
  | nil => simp only [events] at h; cases h; rfl
  | cons e l ih =>
    cases e with
    | opt c a =>
      simp only [events, List.cons_append] at h ⊢
      cases hs : step s c (a.getD []) with
      | error x => rw [hs] at h; simp at h
      | ok s1 => rw [hs] at h; exact ih s1 h
    | unknown c => simp [events] at h
    | missing c => simp [events] at h

theorem given_split (l : Options) (h : given 'h' l = true) : ∃ a o b, l = a ++ ('h', o) :: b ∧ given 'h' a = false := by
  induction l with
  | nil => simp [given] at h
  | cons p l ih =>
    by_cases hp : p.1 = 'h'
    · exact ⟨[], p.2, l, by rw [← hp]; rfl, rfl⟩
    · have : given 'h' l = true := by simpa [given, hp] using h
      obtain ⟨a, o, b, rfl, hb⟩ := ih this
      exact ⟨p :: a, o, b, rfl, by simpa [given, hp] using hb⟩

theorem main_help {σ τ : Type} (t : Tool σ τ) (hos : '-' ∉ t.opts) (spec : Options → σ) (h0 : spec [] = t.init)
    (hs : ∀ l c a, kind t.opts c = some a.isSome → c ∉ ['h'] → t.step (spec l) c (a.getD []) = .ok (spec (l ++ [(c, a)])))
    (hh : ∀ s a, t.step s 'h' a = .error .help) (l : Line) (h : l.OK t.opts) (hg : given 'h' l.options = true) : t.main l.words = .error .help := by
  unfold Tool.main
  rw [getopt_reads hos l h]
  simp only
  obtain ⟨a, o, b, e, hb⟩ := given_split _ hg
  have hv := h.valid
  rw [e] at hv ⊢
  have := events_spec spec ['h'] h0 hs a (fun p hp => hv p (by simp [hp])) (by simpa using hb)
  rw [List.map_append, events_append _ _ _ _ _ this, List.map_cons, ev, events, hh]

/-! ## The tools -/

/-- **C122.** `binavg`. -/
theorem binavg_command (l : Line) (h : l.OK ['h', 'v', 'o', '2', '3']) :
    (given 'h' l.options = true → binavg.main l.words = .error .help) ∧
    (given 'h' l.options = false → ∀ r : BinAvg, binavg.main l.words = .ok r ↔
      ∃ n z, l.operands = [n, z] ∧ 1 ≤ int z ∧ r = ⟨colsOf l.options, n, int z⟩) := by
  constructor
  · exact main_help binavg (by decide) colsOf rfl cols_step (fun _ _ => rfl) l h
  · intro hg r
    rw [main_line binavg (by decide) colsOf ['h'] rfl cols_step l h (by simpa using hg)]
    simp only [binavg]
    split <;> simp_all
    all_goals try split <;> simp_all
    all_goals try exact eq_comm

/-- **C122.** `mats`. -/
theorem mats_command (l : Line) (h : l.OK ['h', 'v', 'o', '2', '3']) :
    (given 'h' l.options = true → mats.main l.words = .error .help) ∧
    (given 'h' l.options = false → ∀ r : Mats, mats.main l.words = .ok r ↔
      ∃ n z t m, l.operands = [n, z, t, m] ∧ 1 ≤ int z ∧ 0 < num t ∧ 1 ≤ int m ∧ r = ⟨colsOf l.options, n, int z, num t, int m⟩) := by
  constructor
  · exact main_help mats (by decide) colsOf rfl cols_step (fun _ _ => rfl) l h
  · intro hg r
    rw [main_line mats (by decide) colsOf ['h'] rfl cols_step l h (by simpa using hg)]
    simp only [mats]
    split <;> simp_all
    all_goals try split <;> simp_all
    all_goals try exact eq_comm

/-- **C122.** `bw`. -/
theorem bw_command (l : Line) (h : l.OK ['h', 'v', 'V', 'm', ':', 'M', ':', 'r', ':', 'n', ':', 't', ':', 'p', 'q', ':', 's', 'S', 'x', ':', 'd', ':', 'o']) :
    (given 'h' l.options = true → bw.main l.words = .error .help) ∧
    (given 'h' l.options = false → ∀ r : BwCmd, bw.main l.words = .ok r ↔
      ∃ n b z, l.operands = [n, b, z] ∧ 0 < num b ∧ 1 ≤ int z ∧ r = ⟨bwOf l.options, n, num b, int z⟩) := by
  constructor
  · exact main_help bw (by decide) bwOf rfl bw_step (fun _ _ => rfl) l h
  · intro hg r
    rw [main_line bw (by decide) bwOf ['h'] rfl bw_step l h (by simpa using hg)]
    simp only [bw]
    split <;> simp_all
    all_goals try split <;> simp_all
    all_goals try exact eq_comm

/-- **C122.** `integ`. -/
theorem integ_command (l : Line) (h : l.OK ['h', 'v', 'V', 'w', 't', ':', 'T', ':', 'p', 'n', 'a', 'f']) :
    (given 'h' l.options = true → integ.main l.words = .error .help) ∧
    (given 'h' l.options = false → ∀ r : IntegSet × Str, integ.main l.words = .ok r ↔
      ∃ f, l.operands = [f] ∧ r = (integOf l.options, f)) := by
  constructor
  · exact main_help integ (by decide) integOf rfl integ_step (fun _ _ => rfl) l h
  · intro hg r
    rw [main_line integ (by decide) integOf ['h'] rfl integ_step l h (by simpa using hg)]
    simp only [integ]
    split <;> simp_all
    all_goals try split <;> simp_all
    all_goals try exact eq_comm

/-- **C122.** `diag`. -/
theorem diag_command (l : Line) (h : l.OK ['h', 't', 'T', 'b', 'B', 'v', 'V', 'q', 'o', ':', 'O', ':', 's', ':']) :
    (given 'h' l.options = true → diag.main l.words = .error .help) ∧
    (given 'h' l.options = false → ∀ r : Mx.DOpt ℚ × Str, diag.main l.words = .ok r ↔
      ∃ f, l.operands = [f] ∧ r = (diagOf l.options, f)) := by
  constructor
  · exact main_help diag (by decide) diagOf rfl diag_step (fun _ _ => rfl) l h
  · intro hg r
    rw [main_line diag (by decide) diagOf ['h'] rfl diag_step l h (by simpa using hg)]
    simp only [diag]
    split <;> simp_all
    all_goals try split <;> simp_all
    all_goals try exact eq_comm

/-- **C122.** `unitary`. -/
theorem unitary_command (l : Line) (h : l.OK ['h', 'b', 'B', 'q', 'v', 'V', 't', 'l', 's', ':', 'o', ':', 'c', ':']) :
    (given 'h' l.options = true → unitary.main l.words = .error .help) ∧
    (given 'h' l.options = false → ∀ r : Mx.UOpt ℚ × Str × Str × Str, unitary.main l.words = .ok r ↔
      ∃ a b c, l.operands = [a, b, c] ∧ r = (unitaryOf l.options, a, b, c)) := by
  constructor
  · exact main_help unitary (by decide) unitaryOf rfl unitary_step (fun _ _ => rfl) l h
  · intro hg r
    rw [main_line unitary (by decide) unitaryOf ['h'] rfl unitary_step l h (by simpa using hg)]
    simp only [unitary]
    split <;> simp_all
    all_goals try split <;> simp_all
    all_goals try exact eq_comm

/-- **C122.** `matrix`. -/
theorem matrix_command (l : Line) (h : l.OK ['h', 'c', ':', 'v', 'p', 'P', 's']) :
    (given 'h' l.options = true → matrix.main l.words = .error .help) ∧
    (given 'h' l.options = false → ∀ r : CalcSet × List Str, matrix.main l.words = .ok r ↔
      r = (calcOf l.options, l.operands)) := by
  constructor
  · exact main_help matrix (by decide) calcOf rfl matrix_step (fun _ _ => rfl) l h
  · intro hg r
    rw [main_line matrix (by decide) calcOf ['h'] rfl matrix_step l h (by simpa using hg)]
    simp only [matrix, Except.ok.injEq]
    exact eq_comm

/-- **C122.** `h5write`. -/
theorem h5write_command (l : Line) (h : l.OK ['h', 's', 't']) :
    (given 'h' l.options = true → h5write.main l.words = .error .help) ∧
    (given 'h' l.options = false → ∀ r : H5Set × Str × Str × Str, h5write.main l.words = .ok r ↔
      ∃ f p i, l.operands = [f, p, i] ∧ r = (h5Of l.options, f, p, i)) := by
  constructor
  · exact main_help h5write (by decide) h5Of rfl h5write_step (fun _ _ => rfl) l h
  · intro hg r
    rw [main_line h5write (by decide) h5Of ['h'] rfl h5write_step l h (by simpa using hg)]
    simp only [h5write]
    split <;> simp_all
    all_goals try split <;> simp_all
    all_goals try exact eq_comm

/-- **C122.** `intavg`. -/
theorem intavg_command (l : Line) (h : l.OK ['h', 'v', 'V']) :
    (given 'h' l.options = true → intavg.main l.words = .error .help) ∧
    (given 'h' l.options = false → ∀ r : Str × Int, intavg.main l.words = .ok r ↔
      ∃ n z, l.operands = [n, z] ∧ 1 ≤ int z ∧ r = (n, int z)) := by
  constructor
  · exact main_help intavg (by decide) (fun _ => ()) rfl intavg_step (fun _ _ => rfl) l h
  · intro hg r
    rw [main_line intavg (by decide) (fun _ => ()) ['h'] rfl intavg_step l h (by simpa using hg)]
    simp only [intavg]
    split <;> simp_all
    all_goals try split <;> simp_all
    all_goals try exact eq_comm

/-- **C122.** `tdavg`. -/
theorem tdavg_command (l : Line) (h : l.OK ['h', 'v', 'V', 'c']) :
    (given 'h' l.options = true → tdavg.main l.words = .error .help) ∧
    (given 'h' l.options = false → ∀ r : TdAvg, tdavg.main l.words = .ok r ↔
      (l.operands = [] ∧ r = ⟨given 'c' l.options, ['t', 'd', '.', 'd', 'a', 't'], none⟩) ∨
        (∃ n, l.operands = [n] ∧ r = ⟨given 'c' l.options, n, none⟩) ∨ ∃ n f, l.operands = [n, f] ∧ r = ⟨given 'c' l.options, n, some f⟩) := by
  constructor
  · exact main_help tdavg (by decide) (given 'c') rfl tdavg_step (fun _ _ => rfl) l h
  · intro hg r
    rw [main_line tdavg (by decide) (given 'c') ['h'] rfl tdavg_step l h (by simpa using hg)]
    simp only [tdavg]
    split <;> simp_all
    all_goals try split <;> simp_all
    all_goals try exact eq_comm

theorem ends_h {os : Str} (hos : '-' ∉ os) (hk : WithArg os 'h') {l : Line} (h : l.OK os) : l.words ≠ [['-', 'h']] := by
  intro e
  have h1 := getopt_reads hos l h
  rw [e, getopt_dash (by simp), cluster, hk.kind] at h1
  simp only [if_pos, getopt, List.nil_append, Prod.mk.injEq] at h1
  have : Ev.missing 'h' ∈ l.options.map ev := by rw [← h1.1]; simp
  obtain ⟨p, -, hp⟩ := List.mem_map.1 this
  simp [ev] at hp

/-- **C122.** `specmoments`. -/
theorem specmoments_command (l : Line) (h : l.OK ['v', 'o', 'l', ':', 'h', ':', 'p', 'n', 'c']) (r : SpecMoments) : specmomentsMain l.words = .ok r ↔
    ∃ n z, l.operands = [n, z] ∧ 1 ≤ int z ∧ r = ⟨momOf l.options, n, int z⟩ := by
  have hne := ends_h (by decide) ⟨['v', 'o', 'l', ':'], ['p', 'n', 'c'], rfl, by decide, by decide⟩ h
  unfold specmomentsMain
  rw [if_neg hne, main_line specmoments (by decide) momOf [] rfl specmoments_step l h (by simp)]
  simp only [specmoments]
  split <;> simp_all
  all_goals try split <;> simp_all
  all_goals try exact eq_comm

theorem any_le {o : Option Str} : (o.map num).any (fun g => decide (g ≤ 0)) = false ↔ ∀ g, o = some g → 0 < num g := by
  cases o <;> simp

theorem brFinish_iff (o : Options) (n z a t : Str) (w : ℚ) (r : Broaden) : brFinish (brOf o) n z a t w = .ok r ↔
    1 ≤ int z ∧ 0 < num a ∧ 0 < num t ∧ 0 < w ∧ (∀ g, argOf 'f' o = some g → 0 < num g) ∧ (∀ g, argOf 'x' o = some g → 0 < num g) ∧
    (given 'B' o = false ∨ given 'A' o = false) ∧ r = ⟨brOf o, n, int z, num a, num t, w⟩ := by
  have hf := any_le (o := argOf 'f' o)
  have hx := any_le (o := argOf 'x' o)
  have e1 : (brOf o).finalGauss = (argOf 'f' o).map num := rfl
  have e2 : (brOf o).finalDer = (argOf 'x' o).map num := rfl
  have e3 : (brOf o).meshpos = !given 'B' o := rfl
  have e4 : (brOf o).meshneg = !given 'A' o := rfl
  unfold brFinish
  rw [← hf, ← hx, e1, e2, e3, e4]
  by_cases h1 : 1 ≤ int z
  swap; · simp [h1]
  by_cases h2 : 0 < num a
  swap; · simp [h1, h2]
  by_cases h3 : 0 < num t
  swap; · simp [h1, h2, h3]
  by_cases h4 : 0 < w
  swap; · simp [h1, h2, h3, h4]
  cases h5 : (Option.map num (argOf 'f' o)).any fun g => decide (g ≤ 0)
  swap; · simp [h1, h2, h3, h4]
  cases h6 : (Option.map num (argOf 'x' o)).any fun g => decide (g ≤ 0)
  swap; · simp [h1, h2, h3, h4]
  cases given 'B' o <;> cases given 'A' o <;> simp [h1, h2, h3, h4, eq_comm]

/-- **C122.** `broaden`. -/
theorem broaden_command (l : Line) (h : l.OK ['v', 'm', ':', 'M', ':', 'r', ':', 'o', '2', '3', 'n', 's', 'c', 'g', 'f', ':', 'x', ':', 'a', ':', 'l', ':',
    'h', ':', 'P', 'N', 'A', 'B', 'L', ':']) (r : Broaden) : broadenMain l.words = .ok r ↔
    ∃ n z a t w, (l.operands = [n, z, a, t] ∧ w = 1 / 1000000000 ∨ ∃ u, l.operands = [n, z, a, t, u] ∧ w = num u) ∧
      1 ≤ int z ∧ 0 < num a ∧ 0 < num t ∧ 0 < w ∧ (∀ g, argOf 'f' l.options = some g → 0 < num g) ∧ (∀ g, argOf 'x' l.options = some g → 0 < num g) ∧
      (given 'B' l.options = false ∨ given 'A' l.options = false) ∧ r = ⟨brOf l.options, n, int z, num a, num t, w⟩ := by
  have hne := ends_h (by decide) ((kind_iff _ _).2.1 (by decide)) h
  unfold broadenMain
  rw [if_neg hne, main_line broaden (by decide) brOf [] rfl broaden_step l h (by simp)]
  have hfin : ∀ s ops, broaden.finish s ops = match ops with
    | [n, z, a, t] => brFinish s n z a t (1 / 1000000000)
    | [n, z, a, t, r] => brFinish s n z a t (num r)
    | _ => .error .usage := fun _ _ => rfl
  rw [hfin]
  constructor
  · intro hr
    split at hr
    · rename_i n z a t heq
      exact ⟨n, z, a, t, _, .inl ⟨heq, rfl⟩, (brFinish_iff ..).1 hr⟩
    · rename_i n z a t u heq
      exact ⟨n, z, a, t, _, .inr ⟨u, heq, rfl⟩, (brFinish_iff ..).1 hr⟩
    · simp at hr
  · rintro ⟨n, z, a, t, w, h1 | ⟨u, h1⟩, h2⟩
    · rw [h1.1]
      rw [h1.2] at h2
      exact (brFinish_iff ..).2 h2
    · rw [h1.1]
      rw [h1.2] at h2
      exact (brFinish_iff ..).2 h2

/-- **C122.** `hilb`. -/
theorem hilb_command (l : Line) (h : l.OK ['h', 'G', 'd', ':', 'v', 'V', 's', ':', 'B', ':', 'o', ':', 'x', ':', 'y', ':']) (h1 : given 'h' l.options = false)
    (h2 : given 'V' l.options = false) (r : HilbCmd) : hilb.main l.words = .ok r ↔
      (∃ f, l.operands = [f] ∧ r = .stream (hilbOf l.options) f) ∨ (∃ x y, l.operands = [x, y] ∧ r = .one (hilbOf l.options) (num x) (num y)) ∨
      (∃ a b c d, l.operands = [a, b, c, d] ∧ r = .files (hilbOf l.options) a b c d) ∨
      (l.operands.length ≠ 1 ∧ l.operands.length ≠ 2 ∧ l.operands.length ≠ 4 ∧ r = .nothing) := by
  rw [main_line hilb (by decide) hilbOf ['h', 'V'] rfl hilb_step l h (by simp [h1, h2])]
  simp only [hilb]
  generalize hilbOf l.options = s
  generalize l.operands = ops
  match ops with
  | [] => simp; exact eq_comm
  | [a] => simp; exact eq_comm
  | [a, b] => simp; exact eq_comm
  | [a, b, c] => simp; exact eq_comm
  | [a, b, c, d] => simp; exact eq_comm
  | a :: b :: c :: d :: e :: t => simp; exact eq_comm

theorem res_cases {c : Char} {a : Option Str} (hk : kind ['h', 'v', 'e', 'p', ':', 'a', ':', 'b', ':'] c = some a.isSome) :
    (c = 'h' ∧ a = none) ∨ (c = 'v' ∧ a = none) ∨ (c = 'e' ∧ a = none) ∨ (c = 'p' ∧ ∃ x, a = some x) ∨ (c = 'a' ∧ ∃ x, a = some x) ∨
      (c = 'b' ∧ ∃ x, a = some x) := by
  rcases kind_cases (flags := ['h', 'v', 'e']) (args := ['p', 'a', 'b']) (by decide +kernel) hk with ⟨hm, h⟩ | ⟨hm, h⟩
  · simp at hm; tauto
  · simp at hm; tauto

theorem lastA_snoc (os : List Resample.Opt) (o : Resample.Opt) : Resample.lastA (os ++ [o]) = (Resample.lastA [o]).or (Resample.lastA os) := by
  induction os with
  | nil => cases o <;> rfl
  | cons c os ih =>
    cases c <;> simp only [List.cons_append, Resample.lastA, ih]
    cases o <;> rfl

theorem lastB_snoc (os : List Resample.Opt) (o : Resample.Opt) : Resample.lastB (os ++ [o]) = (Resample.lastB [o]).or (Resample.lastB os) := by
  induction os with
  | nil => cases o <;> rfl
  | cons c os ih =>
    cases c <;> simp only [List.cons_append, Resample.lastB, ih]
    cases o <;> rfl

theorem lastP_snoc (os : List Resample.Opt) (o : Resample.Opt) : Resample.lastP (os ++ [o]) = (Resample.lastP [o]).or (Resample.lastP os) := by
  induction os with
  | nil => cases o <;> rfl
  | cons c os ih =>
    cases c <;> simp only [List.cons_append, Resample.lastP, ih]
    cases o <;> rfl

theorem res_last (l : Options) (hv : Valid ['h', 'v', 'e', 'p', ':', 'a', ':', 'b', ':'] l) :
    Resample.lastA (l.map fun p => resOpt (ev p)) = argOf 'a' l ∧ Resample.lastB (l.map fun p => resOpt (ev p)) = argOf 'b' l ∧
    Resample.lastP (l.map fun p => resOpt (ev p)) = argOf 'p' l ∧
    (Resample.Opt.h ∈ (l.map fun p => resOpt (ev p)) ↔ given 'h' l = true) ∧ (Resample.Opt.e ∈ (l.map fun p => resOpt (ev p)) ↔ given 'e' l = true) ∧
    Resample.Opt.bad ∉ (l.map fun p => resOpt (ev p)) ∧
    (∀ t, Resample.Opt.a t ∈ (l.map fun p => resOpt (ev p)) ↔ ('a', some t) ∈ l) ∧
    (∀ t, Resample.Opt.b t ∈ (l.map fun p => resOpt (ev p)) ↔ ('b', some t) ∈ l) := by
  induction l using List.reverseRecOn with
  | nil => simp [Resample.lastA, Resample.lastB, Resample.lastP, argOf, given]
  | append_singleton l p ih =>
    obtain ⟨c, a⟩ := p
    obtain ⟨i1, i2, i3, i4, i5, i6, i7, i8⟩ := ih fun q hq => hv q (by simp [hq])
    rw [List.map_append, List.map_singleton, lastA_snoc, lastB_snoc, lastP_snoc, i1, i2, i3]
    simp only [List.mem_append, i4, i5, i6, i7, i8, List.mem_singleton, given_snoc, argOf_snoc]
    rcases res_cases (hv (c, a) (by simp)) with ⟨rfl, rfl⟩ | ⟨rfl, rfl⟩ | ⟨rfl, rfl⟩ | ⟨rfl, x, rfl⟩ | ⟨rfl, x, rfl⟩ | ⟨rfl, x, rfl⟩ <;>
      simp [resOpt, ev, Resample.lastA, Resample.lastB, Resample.lastP]

/-- **C122.** `resample`: from the command line to the files. -/
theorem resample_command {K : Type} [LinearOrder K] (F : Resample.Fmt K) (S : Resample.Spline K) (l : Line)
    (h : l.OK ['h', 'v', 'e', 'p', ':', 'a', ':', 'b', ':']) (fs fs' : Resample.Files) : resample F S l.words fs = .ok fs' ↔
    given 'h' l.options = false ∧ (∀ t, ('a', some t) ∈ l.options ∨ ('b', some t) ∈ l.options → F.stod t ≠ none ∧ given 'e' l.options = true) ∧
    ∃ i g o, l.operands = [i, g, o] ∧
      Resample.onFiles F S ⟨((argOf 'p' l.options).map F.atoi).getD 16, given 'e' l.options, (argOf 'a' l.options).bind F.stod,
        (argOf 'b' l.options).bind F.stod⟩ i g o fs = .ok fs' := by
  unfold resample Resample.main
  rw [getopt_reads (by decide) l h]
  simp only [List.map_map]
  have hm : (l.options.map (resOpt ∘ ev)) = l.options.map fun p => resOpt (ev p) := rfl
  rw [hm]
  obtain ⟨i1, i2, i3, i4, i5, i6, i7, i8⟩ := res_last l.options h.valid
  have key := Resample.resample_options F (l.options.map fun p => resOpt (ev p)) l.operands
  simp only [i1, i2, i3, i4, i5, i6, i7, i8, not_false_eq_true, true_and, Bool.not_eq_true] at key
  have hd : decide (given 'e' l.options = true) = given 'e' l.options := by cases given 'e' l.options <;> rfl
  cases hp : Resample.parse F (l.options.map fun p => resOpt (ev p)) l.operands with
  | error e =>
    simp only [reduceCtorEq, false_iff]
    rintro ⟨g1, g2, i, g, o, g3, -⟩
    have := (key (⟨((argOf 'p' l.options).map F.atoi).getD 16, decide (given 'e' l.options = true), (argOf 'a' l.options).bind F.stod,
        (argOf 'b' l.options).bind F.stod⟩, i, g, o)).2 ⟨g1, g2, i, g, o, g3, rfl⟩
    rw [hp] at this
    simp at this
  | ok r =>
    obtain ⟨g1, g2, i, g, o, g3, rfl⟩ := (key r).1 hp
    simp only [hd]
    constructor
    · intro hr
      exact ⟨g1, g2, i, g, o, g3, hr⟩
    · rintro ⟨-, -, i', g', o', g3', hr⟩
      rw [g3] at g3'
      simp only [List.cons.injEq, and_true] at g3'
      obtain ⟨rfl, rfl, rfl⟩ := g3'
      exact hr

/-- The settings of `bw` as those with which the spectrum is computed. -/
noncomputable def BwCmd.opt (r : BwCmd) : Bw.Opt where
  min := r.set.min
  max := r.set.max
  ratio := r.set.ratio
  iters := r.set.iters
  trim := r.set.trim
  positivity := r.set.positivity
  b0 := r.b0
  bmin := r.set.bmin
  q := r.set.q
  savemore := r.set.savemore
  saveall := r.set.saveall
  dyn := r.set.dyn
  one := r.set.one
  Nz := r.Nz

/-- **C122.** The checks of `bw` are those of its computation; without options the defaults are used. -/
theorem bw_defaults (n : Str) (b : Lit) (hb : b.OK) (z : Int) (hz : inInt z) (hn : n.head? ≠ some '-') (hp : 0 < Table.Dec.value b.val) (h1 : 1 ≤ z)
    (hd : b.text.head? ≠ some '-') : ∃ r, bw.main [n, b.text, intStr z] = .ok r ∧ r.name = n ∧
      r.opt = { b0 := (Table.Dec.value b.val : ℝ), Nz := z } ∧ Bw.check r.opt = .ok () := by
  have hz' : (intStr z).head? ≠ some '-' := by
    unfold intStr
    rw [if_neg (by omega)]
    obtain ⟨c, t, hc, hdg⟩ := natStr_cons z.natAbs
    rw [hc]
    rintro h
    simp at h
    subst h
    exact absurd hdg (by decide)
  let l : Line := ⟨[.operand n, .operand b.text, .operand (intStr z)], none⟩
  have hl : l.OK ['h', 'v', 'V', 'm', ':', 'M', ':', 'r', ':', 'n', ':', 't', ':', 'p', 'q', ':', 's', 'S', 'x', ':', 'd', ':', 'o'] := by
    intro p hp
    simp only [l, List.mem_cons, List.not_mem_nil, or_false] at hp
    rcases hp with rfl | rfl | rfl
    · exact .inl hn
    · exact .inl hd
    · exact .inl hz'
  have hw : l.words = [n, b.text, intStr z] := rfl
  have ho : l.options = [] := rfl
  refine ⟨⟨bwOf [], n, num b.text, int (intStr z)⟩, ?_, rfl, ?_, ?_⟩
  · rw [← hw, ((bw_command l hl).2 (by rw [ho]; rfl) _)]
    exact ⟨n, b.text, intStr z, rfl, by rw [num_lit hb]; exact hp, by rw [int_str z hz]; exact h1, rfl⟩
  · rw [num_lit hb, int_str z hz]
    simp only [BwCmd.opt, bwOf, numOf, argOf, given, List.filter_nil, List.getLast?_nil, Option.bind_none, Option.map_none, Option.getD_none, List.any_nil]
    congr 1 <;> norm_num
  · rw [num_lit hb, int_str z hz]
    exact if_pos ⟨by simpa [BwCmd.opt] using hp, h1⟩

end Verif.Cmd
