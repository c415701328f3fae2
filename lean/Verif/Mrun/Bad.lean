import Verif.Mrun.Props
/-!
# What a user of `matrix` would not expect of the files
-/

namespace Verif.Mrun
open Verif.Text
open Verif.DataFile (Dec Lit Blank readDec)
open Verif.Table (Dec.value)
open Verif.Calc (Env Ev calculator)
open Verif.Calc.Spec (hybrid entry St prPr result nameCount Written)
open Verif.Cmd (Line given argOf lastAmong calcOf CalcSet)

variable {K : Type} [Field K] [DecidableEq K]

theorem bind_ok {A C : Type} {x : Except Fail A} {f : A → Except Fail C} {c : C} (h : (x >>= f) = .ok c) : ∃ a, x = .ok a ∧ f a = .ok c := by
  cases x with
  | error e => cases h
  | ok a => exact ⟨a, rfl, h⟩

theorem single_file {fs : Files} {name : Str} {d : Dec} (h : single fs name = .ok d) : ∃ s, fs name = some s ∧ d = number s := by
  rw [single] at h
  cases hs : fs name with
  | none => rw [hs] at h; cases h
  | some s => rw [hs] at h; exact ⟨s, rfl, by cases h; rfl⟩

theorem table_file {fs : Files} {name : Str} {l : List Dec} (h : table fs name = .ok l) : (fs name).isSome := by
  rw [table] at h
  cases hs : fs name with
  | none => rw [hs] at h; cases h
  | some s => rfl

theorem run_parts {B : Env K} {fs : Files} {stdin : Str} {argv : List Str} {r : CalcSet × Calc.Outcome K} (h : matrix B fs stdin argv = .ok r) :
    ∃ o ops cs, Cmd.matrix.main argv = .ok (o, ops) ∧ channels fs o = .ok cs ∧ ∃ t, source fs stdin ops = .ok t := by
  rw [matrix] at h
  cases hm : Cmd.matrix.main argv with
  | error e => rw [hm] at h; cases h
  | ok x =>
    obtain ⟨o, ops⟩ := x
    rw [hm] at h
    dsimp only at h
    cases hc : channels fs o with
    | error e => rw [hc] at h; cases h
    | ok cs =>
      rw [hc] at h
      dsimp only at h
      cases hs : source fs stdin ops with
      | error e => rw [hs] at h; cases h
      | ok t => exact ⟨o, ops, cs, rfl, hc, t, hs⟩

/-- **C131 (in part).** Nothing is computed unless all the files can be opened, the number of channels is not negative and no hybridisation strength is below zero. Not true:
that the files must contain what is expected of them, see below. -/
theorem matrix_files_partial (B : Env K) (fs : Files) (stdin : Str) (l : Line) (hl : l.OK ['h', 'c', ':', 'v', 'p', 'P', 's']) (hh : given 'h' l.options = false)
    (hs : given 's' l.options = false) (r : CalcSet × Calc.Outcome K) (h : matrix B fs stdin l.words = .ok r) :
    0 ≤ ((argOf 'c' l.options).map Cmd.int).getD 1 ∧
    (∀ ch : Nat, 1 ≤ ch → (ch : Int) ≤ ((argOf 'c' l.options).map Cmd.int).getD 1 →
      (∃ s, fs ("theta".toList ++ suffix ((argOf 'c' l.options).map Cmd.int) ch) = some s ∧ ∀ d more, Lists s (d :: more) → 0 ≤ Dec.value d) ∧
      (fs ("xi".toList ++ suffix ((argOf 'c' l.options).map Cmd.int) ch)).isSome ∧ (fs ("zeta".toList ++ suffix ((argOf 'c' l.options).map Cmd.int) ch)).isSome) ∧
    ∀ n, l.operands = [n] → (fs n).isSome := by
  obtain ⟨o, ops, cs, h1, h2, t, h3⟩ := run_parts h
  have h4 := ((Cmd.matrix_command l hl).2 hh (o, ops)).1 h1
  simp only [Prod.mk.injEq] at h4
  obtain ⟨rfl, rfl⟩ := h4
  rw [channels] at h2
  split at h2
  · cases h2
  next hn =>
    have hn' : ¬ ((argOf 'c' l.options).map Cmd.int).getD 1 < 0 := hn
    refine ⟨by omega, ?_, ?_⟩
    · intro ch c1 c2
      obtain ⟨x, hx⟩ := each_all h2 ch (mem_channels.2 ⟨c1, c2⟩)
      rw [show (calcOf l.options).sc = false from hs] at hx
      change normal fs (calcOf l.options).channels.isSome ch = .ok x at hx
      obtain ⟨d, hd, hx⟩ := bind_ok hx
      split at hx
      · cases hx
      next hv =>
        obtain ⟨a, ha, hx⟩ := bind_ok hx
        obtain ⟨b, hb, -⟩ := bind_ok hx
        obtain ⟨s, s1, s2⟩ := single_file hd
        have a1 := table_file ha
        have b1 := table_file hb
        rw [name_suffix] at s1 a1 b1
        refine ⟨⟨s, s1, fun e more he => ?_⟩, a1, b1⟩
        rw [number_lists he] at s2
        subst s2
        exact not_lt.1 hv
    · intro n hn
      rw [hn, source] at h3
      cases hf : fs n with
      | none => rw [hf] at h3; cases h3
      | some s => rfl

theorem comment_unreadable (r : Str) : readDec ('#' :: r) = none := rfl

/-- The program without options, when the tables can be opened. -/
theorem plain_run (B : Env K) (fs : Files) (stdin t x z : Str) (ht : fs "theta.dat".toList = some t) (hx : fs "xi.dat".toList = some x) (hz : fs "zeta.dat".toList = some z)
    (h0 : 0 ≤ Dec.value (number t)) :
    matrix B fs stdin [] = .ok ({}, calculator (withChannels B [⟨number t, numbers x, numbers z, [], [], []⟩]) stdin) := by
  have h1 : single fs (nameOf ['t', 'h', 'e', 't', 'a'] false 1) = .ok (number t) := by
    rw [single]; erw [ht]
  have h2 : table fs (nameOf ['x', 'i'] false 1) = .ok (numbers x) := by
    rw [table]; erw [hx]
  have h3 : table fs (nameOf ['z', 'e', 't', 'a'] false 1) = .ok (numbers z) := by
    rw [table]; erw [hz]
  have h4 : normal fs false 1 = .ok ⟨number t, numbers x, numbers z, [], [], []⟩ := by
    rw [normal]
    erw [h1]
    change (if Dec.value (number t) < 0 then _ else _) = _
    rw [if_neg (not_lt.2 h0)]
    erw [h2, h3]
    rfl
  have h5 : channels fs {} = .ok [⟨number t, numbers x, numbers z, [], [], []⟩] := by
    rw [channels]
    change each (normal fs false) [1] = _
    rw [each, h4]
    rfl
  rw [matrix]
  change (match channels fs {} with | .error e => _ | .ok cs => _) = _
  rw [h5]
  rfl

/-- **C131 (violated).** A file `theta.dat` that begins with a comment: the comment cannot be read as a number, the hybridisation strength counts as zero, whatever follows. -/
theorem theta_comment (B : Env K) (hB : B.val ⟨0, 0⟩ = 0) (fs : Files) (stdin r x z : Str) (ht : fs "theta.dat".toList = some ('#' :: r)) (hx : fs "xi.dat".toList = some x)
    (hz : fs "zeta.dat".toList = some z) : ∃ E : Env K, matrix B fs stdin [] = .ok ({}, calculator E stdin) ∧ hybrid E 1 = some (B.sqrt 0) := by
  have hn : number ('#' :: r) = ⟨0, 0⟩ := rfl
  refine ⟨_, plain_run B fs stdin _ x z ht hx hz (by rw [hn]; simp [Dec.value]), ?_⟩
  simp only [hybrid, withChannels, hn, List.map_cons, List.map_nil, List.getElem?_cons_zero, Option.map_some, hB, zero_div]

/-- **C131 (violated).** A table with a comment between the numbers: what follows is ignored, without any message. -/
theorem table_cut (B : Env K) (fs : Files) (stdin t z : Str) (items : List (Str × Lit)) (r : Str) (hi : ∀ p ∈ items, Blank p.1 ∧ p.2.OK) (hi' : ∀ p ∈ items.tail, p.1 ≠ [])
    (ht : fs "theta.dat".toList = some t) (h0 : 0 ≤ Dec.value (number t)) (hx : fs "xi.dat".toList = some ((items.flatMap fun p => p.1 ++ p.2.text) ++ '\n' :: '#' :: r))
    (hz : fs "zeta.dat".toList = some z) : ∃ E : Env K, matrix B fs stdin [] = .ok ({}, calculator E stdin) ∧
      ∀ i, entry E .xi 1 i = (items[i]?).map fun p => B.val p.2.val := by
  refine ⟨_, plain_run B fs stdin t _ z ht hx hz h0, fun i => ?_⟩
  have hc : readDec ('\n' :: '#' :: r) = none := rfl
  rw [numbers_items items ('\n' :: '#' :: r) hc (Verif.DataFile.sep_cons rfl) hi hi']
  simp [entry, Calc.Spec.table, withChannels]
  rfl

/-- **C131 (violated).** With `-s` the hybridisation strength is not read: `gammapolch` is zero for every channel. -/
theorem nambu_hybrid (B : Env K) (hB : B.val ⟨0, 0⟩ = 0) (fs : Files) (stdin : Str) (l : Line) (hl : l.OK ['h', 'c', ':', 'v', 'p', 'P', 's'])
    (hh : given 'h' l.options = false) (hs : given 's' l.options = true) (v : Nat → Nat → Nat → Dec) (xi zeta delta kappa : Nat → List Dec)
    (h : NambuFiles fs ((argOf 'c' l.options).map Cmd.int) v xi zeta delta kappa) (text : Str) (ht : Source fs stdin l.operands text) :
    ∃ E : Env K, matrix B fs stdin l.words = .ok (calcOf l.options, calculator E text) ∧
      ∀ ch : Nat, 1 ≤ ch → (ch : Int) ≤ ((argOf 'c' l.options).map Cmd.int).getD 1 → hybrid E ch = some (B.sqrt 0) := by
  refine ⟨_, run_of hl hh (channels_nambu (o := calcOf l.options) hs h) ht, ?_⟩
  rintro (_ | k) h1 h2
  · omega
  have hk : k < ((calcOf l.options).channels.getD 1).toNat := by
    change k < (((argOf 'c' l.options).map Cmd.int).getD 1).toNat
    omega
  simp only [hybrid, withChannels]
  rw [List.map_map, get_channel, if_pos hk]
  simp [hB]

/-- **C131 (violated).** The files `Vij` of the second and further channels must be there, but their contents do not matter. -/
theorem nambu_first_channel (B : Env K) (fs fs' : Files) (stdin : Str) (l : Line) (hl : l.OK ['h', 'c', ':', 'v', 'p', 'P', 's'])
    (hh : given 'h' l.options = false) (hs : given 's' l.options = true) (v v' : Nat → Nat → Nat → Dec) (xi zeta delta kappa : Nat → List Dec)
    (h : NambuFiles fs ((argOf 'c' l.options).map Cmd.int) v xi zeta delta kappa) (h' : NambuFiles fs' ((argOf 'c' l.options).map Cmd.int) v' xi zeta delta kappa)
    (h1 : v 1 = v' 1) (text : Str) (ht : Source fs stdin l.operands text) (ht' : Source fs' stdin l.operands text) :
    matrix B fs stdin l.words = matrix B fs' stdin l.words := by
  rw [run_of hl hh (channels_nambu (o := calcOf l.options) hs h) ht, run_of hl hh (channels_nambu (o := calcOf l.options) hs h') ht']
  congr 3
  simp only [withChannels, List.map_map]
  congr 1
  rcases hn : ((calcOf l.options).channels.getD 1).toNat with _ | n
  · rfl
  · simp [List.range_succ_eq_map, h1]

/-- **C131 (violated).** A number of channels that is not a number counts as zero: the program runs without any tables. -/
theorem no_channels (B : Env K) (fs : Files) (stdin : Str) : ∃ E : Env K, matrix B fs stdin ["-c".toList, "two".toList] = .ok ({ channels := some 0 }, calculator E stdin) ∧
    ∀ k i j, hybrid E i = none ∧ entry E k i j = none := by
  refine ⟨withChannels B [], rfl, fun k i j => ⟨by cases i <;> rfl, ?_⟩⟩
  cases i <;> cases k <;> cases j <;> rfl

/-- **C131 (violated).** With `-P` an empty matrix leaves a prefix without end of line, so that the next result is on the same line: two results, one line. -/
theorem empty_matrix_line (pr : K → Str) (f : Calc.Fin) (x : K) :
    output pr ({ prefixed := true }, .parser f [.mat [], .num x]) = some ("= = ".toList ++ pr x ++ ['\n']) := by
  simp [output, evText, matText, prefixOf]

/-- Such a program. -/
example (E : Env K) : calculator E "{{}}\n1\n".toList = .parser .accept [.mat [], .num ((1 : Nat) : K)] := by
  have hl : Calc.lex "{{}}\n1\n".toList = .ok (prPr [.mat [], .expr (.int 1)]) := by decide +kernel
  rw [calculator, hl]
  rfl

/-- The hypotheses are met: two channels, the number one in every file. -/
example : NambuFiles (fun _ => some "1\n".toList) ((argOf 'c' (⟨[.flags ['s'], .glued [] 'c' ['2']], none⟩ : Line).options).map Cmd.int) (fun _ _ _ => one.val) (fun _ => [one.val])
    (fun _ => [one.val]) (fun _ => [one.val]) (fun _ => [one.val]) := by
  have h : Lists "1\n".toList [one.val] :=
    ⟨[([], one)], ['\n'], by decide, by simp [Blank, isSpace], by simp [Blank, one, Lit.OK, Lit.frac, Verif.DataFile.ExOK, isDigit], by simp, rfl⟩
  exact ⟨by decide, fun ch _ _ => ⟨⟨[], _, rfl, h⟩, ⟨[], _, rfl, h⟩, ⟨[], _, rfl, h⟩, ⟨[], _, rfl, h⟩, ⟨_, rfl, h⟩, ⟨_, rfl, h⟩, ⟨_, rfl, h⟩, ⟨_, rfl, h⟩⟩⟩

/-- The hypotheses are met: a table with a title. -/
example : ∃ E : Env ℚ, matrix (K := ℚ) ⟨Dec.value, 3, fun x => x, fun x => x, fun x => x, [], [], [], [], [], []⟩
    (fun n => if n = "theta.dat".toList then some "# theta\n0.5\n".toList else if n = "xi.dat".toList then some "1\n# next\n2\n".toList
      else if n = "zeta.dat".toList then some [] else none) [] [] = .ok ({}, calculator E []) ∧ hybrid E 1 = some 0 :=
  theta_comment _ (by simp [Dec.value]) _ _ _ _ _ rfl rfl rfl

end Verif.Mrun
