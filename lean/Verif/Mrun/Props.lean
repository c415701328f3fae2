import Verif.Mrun.Lemmas
import Verif.Cmd.Props
import Verif.Calc.Text
import Verif.Mx.Files
import Verif.NrgChain.Example
/-!
# The program `matrix`: coefficients from files, results on standard output
-/

namespace Verif.Mrun
open Verif.Text
open Verif.DataFile (Dec Lit Blank)
open Verif.Table (Dec.value)
open Verif.Calc (Env Ev calculator)
open Verif.Calc.Spec (hybrid entry St prPr result nameCount Written)
open Verif.Cmd (Line given argOf lastAmong calcOf)

variable {K : Type} [Field K] [DecidableEq K]

theorem run_of {B : Env K} {fs : Files} {stdin : Str} {l : Line} (hl : l.OK ['h', 'c', ':', 'v', 'p', 'P', 's']) (hh : given 'h' l.options = false)
    {cs : List Channel} (hc : channels fs (calcOf l.options) = .ok cs) {text : Str} (ht : Source fs stdin l.operands text) :
    matrix B fs stdin l.words = .ok (calcOf l.options, calculator (withChannels B cs) text) := by
  have h1 := ((Cmd.matrix_command l hl).2 hh (calcOf l.options, l.operands)).2 rfl
  rw [matrix, h1]
  dsimp only
  rw [hc]
  dsimp only
  rw [source_ok ht]

theorem get_channel {A : Type} (f : Nat → A) (n k : Nat) : (((List.range n).map (· + 1)).map f)[k]? = if k < n then some (f (k + 1)) else none := by
  by_cases h : k < n <;> simp [h]

/-- **C130.** The program is carried out with the coefficients in the files, in any layout: `coefxi[c,i]` and `coefzeta[c,i]` are the numbers in the tables of channel `c`
counted from zero, `gammapolch[c]` is the square root of the hybridisation strength divided by π; there are no others. -/
theorem matrix_run (B : Env K) (fs : Files) (stdin : Str) (l : Line) (hl : l.OK ['h', 'c', ':', 'v', 'p', 'P', 's']) (hh : given 'h' l.options = false)
    (hs : given 's' l.options = false) (theta : Nat → Dec) (xi zeta : Nat → List Dec) (h : ChainFiles fs ((argOf 'c' l.options).map Cmd.int) theta xi zeta)
    (text : Str) (ht : Source fs stdin l.operands text) :
    ∃ E : Env K, SameArithmetic E B ∧ matrix B fs stdin l.words = .ok (calcOf l.options, calculator E text) ∧
      (∀ ch : Nat, 1 ≤ ch ∧ (ch : Int) ≤ ((argOf 'c' l.options).map Cmd.int).getD 1 → hybrid E ch = some (B.sqrt (B.val (theta ch) / B.pi)) ∧
        (∀ i, entry E .xi ch i = ((xi ch)[i]?).map B.val) ∧ ∀ i, entry E .zeta ch i = ((zeta ch)[i]?).map B.val) ∧
      (∀ ch : Nat, ¬ (1 ≤ ch ∧ (ch : Int) ≤ ((argOf 'c' l.options).map Cmd.int).getD 1) → hybrid E ch = none ∧ ∀ k, k ≠ .v → ∀ i, entry E k ch i = none) ∧
      ∀ i j, entry E .delta i j = none ∧ entry E .kappa i j = none ∧ entry E .v i j = none := by
  refine ⟨_, ?_, run_of hl hh (channels_chain (o := calcOf l.options) hs h) ht, ?_, ?_, ?_⟩
  · exact ⟨rfl, rfl, rfl, rfl, rfl⟩
  · rintro (_ | k) ⟨h1, h2⟩
    · omega
    have hk : k < ((calcOf l.options).channels.getD 1).toNat := by
      change k < (((argOf 'c' l.options).map Cmd.int).getD 1).toNat
      omega
    refine ⟨?_, fun i => ?_, fun i => ?_⟩
    · simp only [hybrid, withChannels]
      rw [List.map_map, get_channel, if_pos hk]
      rfl
    · simp only [entry, Calc.Spec.table, withChannels]
      rw [List.map_map, get_channel, if_pos hk]
      simp
    · simp only [entry, Calc.Spec.table, withChannels]
      rw [List.map_map, get_channel, if_pos hk]
      simp
  · rintro (_ | k) hk
    · exact ⟨rfl, fun k _ i => by cases k <;> rfl⟩
    have hk' : ¬ k < ((calcOf l.options).channels.getD 1).toNat := by
      change ¬ k < (((argOf 'c' l.options).map Cmd.int).getD 1).toNat
      omega
    refine ⟨?_, fun c hc i => ?_⟩
    · simp only [hybrid, withChannels]
      rw [List.map_map, get_channel, if_neg hk']
      rfl
    · cases c with
      | v => exact absurd rfl hc
      | _ =>
        simp only [entry, Calc.Spec.table, withChannels]
        rw [List.map_map, get_channel, if_neg hk']
        rfl
  · intro i j
    refine ⟨?_, ?_, ?_⟩
    · cases i with
      | zero => rfl
      | succ i =>
        simp only [entry, Calc.Spec.table, withChannels]
        rw [List.map_map, get_channel]
        split <;> simp
    · cases i with
      | zero => rfl
      | succ i =>
        simp only [entry, Calc.Spec.table, withChannels]
        rw [List.map_map, get_channel]
        split <;> simp
    · cases i with
      | zero => rfl
      | succ i =>
        cases j with
        | zero => rfl
        | succ j =>
          simp only [entry, Calc.Spec.table, withChannels]
          rcases hn : (List.range ((calcOf l.options).channels.getD 1).toNat) with _ | ⟨a, b⟩ <;> simp

/-- **C130.** With `-s`: also `coefdelta` and `coefkappa`; `coefV[i,j]` is the number in the file `Vij` of the first channel. -/
theorem matrix_nambu (B : Env K) (fs : Files) (stdin : Str) (l : Line) (hl : l.OK ['h', 'c', ':', 'v', 'p', 'P', 's']) (hh : given 'h' l.options = false)
    (hs : given 's' l.options = true) (v : Nat → Nat → Nat → Dec) (xi zeta delta kappa : Nat → List Dec)
    (h : NambuFiles fs ((argOf 'c' l.options).map Cmd.int) v xi zeta delta kappa) (text : Str) (ht : Source fs stdin l.operands text) :
    ∃ E : Env K, SameArithmetic E B ∧ matrix B fs stdin l.words = .ok (calcOf l.options, calculator E text) ∧
      (∀ ch : Nat, 1 ≤ ch ∧ (ch : Int) ≤ ((argOf 'c' l.options).map Cmd.int).getD 1 →
        (∀ i, entry E .xi ch i = ((xi ch)[i]?).map B.val) ∧ (∀ i, entry E .zeta ch i = ((zeta ch)[i]?).map B.val) ∧
        (∀ i, entry E .delta ch i = ((delta ch)[i]?).map B.val) ∧ ∀ i, entry E .kappa ch i = ((kappa ch)[i]?).map B.val) ∧
      (∀ ch : Nat, ¬ (1 ≤ ch ∧ (ch : Int) ≤ ((argOf 'c' l.options).map Cmd.int).getD 1) → hybrid E ch = none ∧ ∀ k, k ≠ .v → ∀ i, entry E k ch i = none) ∧
      (1 ≤ ((argOf 'c' l.options).map Cmd.int).getD 1 → ∀ i j, entry E .v i j = if (i = 1 ∨ i = 2) ∧ (j = 1 ∨ j = 2) then some (B.val (v 1 i j)) else none) := by
  refine ⟨_, ?_, run_of hl hh (channels_nambu (o := calcOf l.options) hs h) ht, ?_, ?_, ?_⟩
  · exact ⟨rfl, rfl, rfl, rfl, rfl⟩
  · rintro (_ | k) ⟨h1, h2⟩
    · omega
    have hk : k < ((calcOf l.options).channels.getD 1).toNat := by
      change k < (((argOf 'c' l.options).map Cmd.int).getD 1).toNat
      omega
    refine ⟨fun i => ?_, fun i => ?_, fun i => ?_, fun i => ?_⟩ <;>
    · simp only [entry, Calc.Spec.table, withChannels]
      rw [List.map_map, get_channel, if_pos hk]
      simp
  · rintro (_ | k) hk
    · exact ⟨rfl, fun k _ i => by cases k <;> rfl⟩
    have hk' : ¬ k < ((calcOf l.options).channels.getD 1).toNat := by
      change ¬ k < (((argOf 'c' l.options).map Cmd.int).getD 1).toNat
      omega
    refine ⟨?_, fun c hc i => ?_⟩
    · simp only [hybrid, withChannels]
      rw [List.map_map, get_channel, if_neg hk']
      rfl
    · cases c with
      | v => exact absurd rfl hc
      | _ =>
        simp only [entry, Calc.Spec.table, withChannels]
        rw [List.map_map, get_channel, if_neg hk']
        rfl
  · intro hn i j
    obtain ⟨n, hn'⟩ : ∃ n, ((calcOf l.options).channels.getD 1).toNat = n + 1 := by
      refine ⟨((calcOf l.options).channels.getD 1).toNat - 1, ?_⟩
      change (((argOf 'c' l.options).map Cmd.int).getD 1).toNat = _
      change _ = (((argOf 'c' l.options).map Cmd.int).getD 1).toNat - 1 + 1
      omega
    rcases i with _ | _ | _ | i <;> rcases j with _ | _ | _ | j <;>
      simp [entry, Calc.Spec.table, withChannels, hn', List.range_succ_eq_map]

/-- **C130.** What is written: the results in their order, each number and vector on a line of its own, a matrix row by row, with `= ` in front of every line if `-P` is the
last of `-p` and `-P`. (An empty matrix has no lines, see C131 for `-P`.) -/
theorem matrix_output (pr : K → Str) (l : Line) (f : Calc.Fin) (out : List (Ev K))
    (h : lastAmong ['p', 'P'] l.options = some 'P' → Ev.mat [] ∉ out) :
    output pr (calcOf l.options, .parser f out) =
      some (out.flatMap fun e => (rowsOf e).flatMap (lineText pr (if lastAmong ['p', 'P'] l.options = some 'P' then "= ".toList else []))) := by
  simp only [output, Option.some.injEq]
  refine List.flatMap_congr fun e he => ?_
  have hp : prefixOf (calcOf l.options) = if lastAmong ['p', 'P'] l.options = some 'P' then "= ".toList else [] := by
    simp only [prefixOf, calcOf, decide_eq_true_eq]
    rfl
  rw [hp]
  refine evText_lines pr _ e fun hm => ?_
  split
  · next hP => exact absurd (hm ▸ he) (h hP)
  · rfl

/-- **C130.** From the command line, the tables and the text of a program to what is written. -/
theorem matrix_program (B : Env K) (pr : K → Str) (fs : Files) (stdin : Str) (l : Line) (hl : l.OK ['h', 'c', ':', 'v', 'p', 'P', 's'])
    (hh : given 'h' l.options = false) (hs : given 's' l.options = false) (theta : Nat → Dec) (xi zeta : Nat → List Dec)
    (h : ChainFiles fs ((argOf 'c' l.options).map Cmd.int) theta xi zeta) (text : Str) (ht : Source fs stdin l.operands text)
    (p : List St) (hne : p ≠ []) (hok : ∀ x ∈ p, x.ok ∧ x.need ≤ 9997) (hw : Written true 0 (prPr p) text) (hn : nameCount (prPr p) ≤ 196)
    (hP : lastAmong ['p', 'P'] l.options ≠ some 'P') :
    ∃ (E : Env K) (r : _), SameArithmetic E B ∧
      (∀ ch : Nat, 1 ≤ ch ∧ (ch : Int) ≤ ((argOf 'c' l.options).map Cmd.int).getD 1 → hybrid E ch = some (B.sqrt (B.val (theta ch) / B.pi)) ∧
        (∀ i, entry E .xi ch i = ((xi ch)[i]?).map B.val) ∧ ∀ i, entry E .zeta ch i = ((zeta ch)[i]?).map B.val) ∧
      matrix B fs stdin l.words = .ok r ∧ output pr r = some ((result E p).2.flatMap fun e => (rowsOf e).flatMap (lineText pr [])) := by
  obtain ⟨E, h1, h2, h3, -⟩ := matrix_run B fs stdin l hl hh hs theta xi zeta h text ht
  rw [Calc.calculator_evaluates E p hne hok text hw hn] at h2
  refine ⟨E, _, h1, h3, h2, ?_⟩
  rw [matrix_output pr l _ _ fun hp => absurd hp hP, if_neg hP]

theorem mx_row (F : Mx.Fmt K) (r : List K) : Mx.rowText F r = [' '].intercalate (r.map F.put) := by
  induction r with
  | nil => rfl
  | cons x r ih =>
    cases r with
    | nil => simp [Mx.rowText, List.intercalate]
    | cons y r => rw [Mx.rowText, ih]; simp [List.intercalate]; simp

/-- **C130.** A matrix written without `-P` is a matrix file: the other tools read the same matrix from it. -/
theorem matrix_file (F : Mx.Fmt K) (l : Line) (f : Calc.Fin) (m : List (List K)) (c : Nat) (hc : 0 < c) (hm : ∀ r ∈ m, r.length = c ∧ ∀ x ∈ r, F.rep x) (hne : m ≠ [])
    (hP : lastAmong ['p', 'P'] l.options ≠ some 'P') :
    ∃ s, output F.put (calcOf l.options, .parser f [.mat m]) = some s ∧ Mx.readText F s = .ok ⟨m.length, c, m⟩ := by
  refine ⟨Mx.matText F m, ?_, by rw [Mx.matText_read F c m hc hm, if_neg hne]⟩
  rw [matrix_output F.put l _ _ fun hp => absurd hp hP, if_neg hP]
  simp only [List.flatMap_cons, List.flatMap_nil, List.append_nil, Mx.matText, Option.some.injEq, rowsOf]
  refine List.flatMap_congr fun r _ => ?_
  rw [mx_row]
  rfl

/-! ## The coefficients of the program for the Wilson chain -/

/-- The number `x` is printed as a decimal number with value `y`. -/
def PrintsAs (W : NrgChain.World) (val : Dec → ℝ) (x y : ℝ) : Prop := ∃ t : Lit, t.OK ∧ W.fmt 16 (some x) = t.text ∧ val t.val = y

theorem fileOf_lists (W : NrgChain.World) (val : Dec → ℝ) (rnd : ℝ → ℝ) (v : List ℝ) (h : ∀ x ∈ v, PrintsAs W val x (rnd x)) :
    ∃ l : List Dec, Lists (NrgChain.fileOf W v) l ∧ l.map val = v.map rnd := by
  suffices key : ∀ v : List ℝ, (∀ x ∈ v, PrintsAs W val x (rnd x)) → ∀ w : Str, ∃ items : List (Str × Lit),
      w ++ NrgChain.fileOf W v = (items.flatMap fun p => p.1 ++ p.2.text) ++ (if v = [] then w else ['\n']) ∧
      (∀ p ∈ items, (p.1 = ['\n'] ∨ p.1 = w) ∧ p.2.OK) ∧ (∀ p ∈ items.tail, p.1 ≠ []) ∧ (items.map fun p => val p.2.val) = v.map rnd by
    obtain ⟨items, h1, h2, h3, h4⟩ := key v h []
    refine ⟨items.map fun p => p.2.val, ⟨items, if v = [] then [] else ['\n'], ?_, ?_, ?_, h3, rfl⟩, by rw [List.map_map]; exact h4⟩
    · exact h1
    · split
      · simp [Blank]
      · intro c hc; simp at hc; subst hc; rfl
    · intro p hp
      refine ⟨?_, (h2 p hp).2⟩
      rcases (h2 p hp).1 with e | e <;> rw [e]
      · intro c hc; simp at hc; subst hc; rfl
      · simp [Blank]
  clear h v
  intro v
  induction v with
  | nil => intro _ w; exact ⟨[], by simp [NrgChain.fileOf], by simp, by simp, rfl⟩
  | cons x v ih =>
    intro h w
    obtain ⟨t, t1, t2, t3⟩ := h x (by simp)
    obtain ⟨items, h1, h2, h3, h4⟩ := ih (fun y hy => h y (by simp [hy])) ['\n']
    refine ⟨(w, t) :: items, ?_, ?_, ?_, ?_⟩
    · have e : NrgChain.fileOf W (x :: v) = t.text ++ (['\n'] ++ NrgChain.fileOf W v) := by simp [NrgChain.fileOf, t2]
      rw [e, h1]
      simp
    · intro p hp
      rcases List.mem_cons.1 hp with rfl | hp
      · exact ⟨Or.inr rfl, t1⟩
      · refine ⟨Or.inl ?_, (h2 p hp).2⟩
        rcases (h2 p hp).1 with e | e <;> exact e
    · intro p hp
      simp only [List.tail_cons] at hp
      rcases (h2 p hp).1 with e | e <;> simp [e]
    · simp [h4, t3]

open scoped Classical in
/-- **C130.** After the program for the Wilson chain, `matrix` without options knows the coefficients which that program has calculated, as they are printed; `rnd` is the
value of the decimal number which is printed. -/
theorem chain_to_matrix {W : NrgChain.World} {fs : NrgChain.FS} {m : NrgChain.Mode} {p : Param.Map} {s q : NrgChain.State} {ops : List NrgChain.Op}
    {c : NrgChain.Channel} (h : NrgChain.fromParams W fs p m s = (ops, .ok c)) (hq : NrgChain.setParameters W { NrgChain.reset s with params := p } = .ok q)
    (hl : NrgChain.Calculates m q) (hc : NrgChain.Chain m q) (B : Env ℝ) (hB : ∀ d, B.val d = (Dec.value d : ℝ)) (rnd : ℝ → ℝ)
    (hp : ∀ x, x = c.theta ∨ x ∈ c.xi ∨ x ∈ c.zeta → PrintsAs W B.val x (rnd x)) (h0 : 0 < c.theta → 0 ≤ rnd c.theta) (stdin : Str) :
    ∃ E : Env ℝ, SameArithmetic E B ∧ matrix B (NrgChain.after fs ops) stdin [] = .ok ({}, calculator E stdin) ∧
      hybrid E 1 = some (B.sqrt (rnd c.theta / B.pi)) ∧ (∀ i, entry E .xi 1 i = (c.xi[i]?).map rnd) ∧ ∀ i, entry E .zeta 1 i = (c.zeta[i]?).map rnd := by
  obtain ⟨-, -, h3, h4⟩ := NrgChain.chain_written h hq hc
  obtain ⟨_, _, _, _, _, _, -, -, -, -, -, -, -, h5, h6⟩ := NrgChain.calculated_chain h hq hl
  obtain ⟨h7, -⟩ := h6 hc
  obtain ⟨xs, x1, x2⟩ := fileOf_lists W B.val rnd c.xi fun x hx => hp x (.inr (.inl hx))
  obtain ⟨zs, z1, z2⟩ := fileOf_lists W B.val rnd c.zeta fun x hx => hp x (.inr (.inr hx))
  obtain ⟨ts, t1, t2⟩ := fileOf_lists W B.val rnd [c.theta] fun x hx => hp x (.inl (by simpa using hx))
  obtain ⟨t, rfl⟩ : ∃ t, ts = [t] := List.length_eq_one_iff.1 (by rw [← List.length_map (f := B.val), t2]; rfl)
  simp only [List.map_cons, List.map_nil, List.cons.injEq, and_true] at t2
  have ht : 0 ≤ Dec.value t := by
    have : (0 : ℝ) ≤ Dec.value t := by rw [← hB, t2]; exact h0 h7
    exact_mod_cast this
  obtain ⟨E, e1, e2, e3, -⟩ := matrix_run B (NrgChain.after fs ops) stdin ⟨[], none⟩ (by simp [Line.OK]) rfl rfl (fun _ => t) (fun _ => xs) (fun _ => zs)
    ⟨by decide, fun ch _ _ => ⟨⟨[], _, h5, t1⟩, ht, ⟨_, h3, x1⟩, ⟨_, h4, z1⟩⟩⟩ stdin (.inl ⟨rfl, rfl⟩)
  obtain ⟨e4, e5, e6⟩ := e3 1 ⟨le_refl _, by decide⟩
  refine ⟨E, e1, e2, ?_, fun i => ?_, fun i => ?_⟩
  · rw [e4, t2]
  · rw [e5, ← List.getElem?_map, x2, List.getElem?_map]
  · rw [e6, ← List.getElem?_map, z2, List.getElem?_map]

/-! ## Examples -/

/-- The tables of one channel with two sites. -/
def sampleFiles : Files := fun n =>
  if n = "theta.dat".toList then some "0.5\n".toList else if n = "xi.dat".toList then some " 1\n2.5e-1".toList else if n = "zeta.dat".toList then some "0\t-3\n\n".toList
  else if n = "prog".toList then some "coefxi[1,1]\n".toList else none

def half : Lit := ⟨false, ['0'], some ['5'], none⟩
def one : Lit := ⟨false, ['1'], none, none⟩
def quarter : Lit := ⟨false, ['2'], some ['5'], some ⟨false, some true, ['1']⟩⟩
def zero : Lit := ⟨false, ['0'], none, none⟩
def minus3 : Lit := ⟨true, ['3'], none, none⟩

theorem sample_files : ChainFiles sampleFiles none (fun _ => half.val) (fun _ => [one.val, quarter.val]) fun _ => [zero.val, minus3.val] := by
  refine ⟨by decide, fun ch h1 h2 => ⟨⟨[], "0.5\n".toList, show sampleFiles ("theta".toList ++ ".dat".toList) = _ by decide, [([], half)], ['\n'], by decide, ?_, ?_, by simp, rfl⟩, ?_,
    ⟨" 1\n2.5e-1".toList, show sampleFiles ("xi".toList ++ ".dat".toList) = _ by decide, [([' '], one), (['\n'], quarter)], [], by decide, ?_, ?_, by simp, rfl⟩,
    ⟨"0\t-3\n\n".toList, show sampleFiles ("zeta".toList ++ ".dat".toList) = _ by decide, [([], zero), (['\t'], minus3)], ['\n', '\n'], by decide, ?_, ?_, by simp, rfl⟩⟩⟩
  all_goals simp [Blank, Lit.OK, Lit.frac, Verif.DataFile.ExOK, half, one, quarter, zero, minus3, isSpace, isDigit, Lit.val, Dec.value, Verif.DataFile.exVal]

/-- The hypotheses are met: the program is in a file. -/
example : Source sampleFiles [] ["prog".toList] "coefxi[1,1]\n".toList ∧
    (⟨[.operand "prog".toList], none⟩ : Line).OK ['h', 'c', ':', 'v', 'p', 'P', 's'] ∧
    ChainFiles sampleFiles ((argOf 'c' (⟨[.operand "prog".toList], none⟩ : Line).options).map Cmd.int) (fun _ => half.val) (fun _ => [one.val, quarter.val])
      (fun _ => [zero.val, minus3.val]) :=
  ⟨.inr ⟨_, rfl, rfl⟩, by intro p hp; simp at hp; subst hp; exact .inl (by decide), sample_files⟩

/-- The run on these files: the second number in the table. -/
example : (matrix (K := ℚ) ⟨Dec.value, 3, fun x => x, fun x => x, fun x => x, [], [], [], [], [], []⟩ sampleFiles [] ["prog".toList]).toOption.bind
    (output fun x => if x = 1 / 4 then ['q'] else ['?']) = some ['q', '\n'] := by decide +kernel

/-- Numbers printed in units of `10⁻¹⁶`. -/
noncomputable def unitText (x : ℝ) : Lit := ⟨decide (⌊x * 10 ^ 16⌋ < 0), natStr ⌊x * 10 ^ 16⌋.natAbs, none, some ⟨false, some true, ['1', '6']⟩⟩

open scoped Classical in
/-- The program for the Wilson chain followed by `matrix`. -/
example (fs : NrgChain.FS) (s : NrgChain.State) (B : Env ℝ) (hB : ∀ d, B.val d = (Dec.value d : ℝ)) (stdin : Str) : ∃ W : NrgChain.World, ∃ ops c, ∃ E : Env ℝ,
    NrgChain.fromParams W fs NrgChain.exP .calculate s = (ops, .ok c) ∧ c.xi.length = 5 ∧ matrix B (NrgChain.after fs ops) stdin [] = .ok ({}, calculator E stdin) ∧
      ∀ i, entry E .xi 1 i = (c.xi[i]?).map fun x => (⌊x * 10 ^ 16⌋ : ℝ) / 10 ^ 16 := by
  let W : NrgChain.World := ⟨fun _ => none, fun _ => 4, fun _ x => (unitText (x.getD 0)).text⟩
  obtain ⟨q, hq, h1, h2, h3, h5, h6, h7, h8, h9⟩ := NrgChain.exSet W rfl s
  obtain ⟨ops, c, hc, k1, k2⟩ := (NrgChain.flat_band (fs := fs) hq h1 h2 h3 h5).1 (by omega)
  have hch : NrgChain.Chain .calculate q := Or.inr ⟨rfl, h5⟩
  obtain ⟨l1, -⟩ := NrgChain.chain_written hc hq hch
  have hp : ∀ x, PrintsAs W B.val x ((⌊x * 10 ^ 16⌋ : ℝ) / 10 ^ 16) := by
    intro x
    refine ⟨unitText x, ⟨natStr_isDigit _, by simp [unitText, Lit.frac], .inl (natStr_ne_nil _), ?_⟩, rfl, ?_⟩
    · intro e he
      simp only [unitText, Option.mem_def, Option.some.injEq] at he
      subst he
      simp [isDigit]
    · rw [hB]
      have hv : (unitText x).val = ⟨⌊x * 10 ^ 16⌋, -16⟩ := by
        have e1 : Verif.DataFile.exVal (some ⟨false, some true, ['1', '6']⟩) = -16 := by decide
        simp only [unitText, Lit.val, Lit.frac, List.append_nil, natStr_value, decide_eq_true_eq, e1, Verif.DataFile.Dec.mk.injEq]
        refine ⟨?_, by simp⟩
        split <;> omega
      rw [hv, Dec.value]
      push_cast
      rw [zpow_neg, div_eq_mul_inv]
      norm_num
  have h0 : 0 < c.theta → (0 : ℝ) ≤ (⌊c.theta * 10 ^ 16⌋ : ℝ) / 10 ^ 16 := by
    intro h
    have : 0 ≤ ⌊c.theta * 10 ^ 16⌋ := Int.floor_nonneg.2 (by positivity)
    positivity
  obtain ⟨E, -, e2, -, e3, -⟩ := chain_to_matrix hc hq (Or.inr ⟨rfl, h3⟩) hch B hB (fun x => (⌊x * 10 ^ 16⌋ : ℝ) / 10 ^ 16) (fun x _ => hp x) h0 stdin
  exact ⟨W, ops, c, E, hc, by rw [l1, h6], e2, e3⟩

end Verif.Mrun
