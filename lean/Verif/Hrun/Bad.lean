import Verif.Hrun.Props
import Mathlib.LinearAlgebra.Lagrange
import Mathlib.Topology.Algebra.Polynomial
/-!
# The program `hilb`: examples, and what it does not do
-/

namespace Verif.Hrun
open Verif.Text
open Verif.DataFile
open Verif.Table (Dec.value pairLE)
open Verif.Cmd
open Verif.Tools.Hilb
open MeasureTheory

/-! ## The contract of splines can be met -/

/-- Interpolation by a polynomial. -/
noncomputable def polySpline : Spline := fun l x =>
  (Lagrange.interpolate (Finset.univ : Finset (Fin l.length)) (fun i => (l.get i).1) (fun i => (l.get i).2)).eval x

theorem poly_contract : Contract polySpline := by
  have inj : ∀ l : List (ℝ × ℝ), l.Pairwise (fun a b => a.1 < b.1) → Function.Injective fun i : Fin l.length => (l.get i).1 := by
    intro l h i j hij
    rcases lt_trichotomy i j with k | k | k
    · exact absurd hij (ne_of_lt (List.pairwise_iff_get.1 h i j k))
    · exact k
    · exact absurd hij.symm (ne_of_lt (List.pairwise_iff_get.1 h j i k))
  refine ⟨fun l _ _ => Polynomial.continuous _, ?_, ?_⟩
  · intro l _ h p hp
    obtain ⟨i, rfl⟩ := List.get_of_mem hp
    exact Lagrange.eval_interpolate_at_node (fun i => (l.get i).2) (fun i _ j _ hij => inj l h hij) (Finset.mem_univ i)
  · intro l _ _ h0 x
    have : (fun i : Fin l.length => (l.get i).2) = 0 := by
      funext i
      exact h0 _ (List.get_mem l i)
    unfold polySpline
    rw [this]
    simp

/-! ## An example -/

/-- The digit `n` and a line end. -/
def dig (c : Char) : Item := (⟨false, [c], none, none⟩, ['\n'])

theorem dig_items {cs : List Char} (h : ∀ c ∈ cs, isDigit c = true) : Items (cs.map dig) := by
  induction cs with
  | nil => trivial
  | cons c cs ih =>
    refine ⟨⟨?_, ?_, ?_, ?_⟩, ?_, by simp, ih fun d hd => h d (by simp [hd])⟩
    · simpa using h c (by simp)
    · simp [DataFile.Lit.frac]
    · simp
    · simp [DataFile.ExOK]
    · intro d hd; simp at hd; subst hd; decide

/-- The semicircle of half-width two. -/
def wide : Line := ⟨[.glued [] 'B' ['2'], .operand ['a'], .operand ['b'], .operand ['c'], .operand ['d']], none⟩

theorem num_two : num ['2'] = 2 := by
  have e := num_lit (x := ⟨false, ['2'], none, none⟩) ⟨by simp; decide, by simp [DataFile.Lit.frac], by simp, by simp [DataFile.ExOK]⟩
  have t : (⟨false, ['2'], none, none⟩ : Lit).text = ['2'] := by simp [DataFile.Lit.text, DataFile.exText]
  rw [t] at e
  rw [e]
  have : (natValue ['2'] : Nat) = 2 := by decide
  simp [DataFile.Lit.val, DataFile.exVal, DataFile.Lit.frac, Table.Dec.value, this]

theorem wide_density (S : Spline) : Density S (hilbOf wide.options) none (semi 2) 2 := by
  have := Density.circle (S := S) (set := hilbOf wide.options) (D := 2) (by norm_num)
    (by simp [hilbOf, wide, Line.options, Piece.options, plainOpts, lastAmong, numOf, argOf, num_two])
    (by simp [hilbOf, wide, Line.options, Piece.options, plainOpts, lastAmong, numOf, argOf, num_two, recip])
  simpa using this

/-- The hypotheses of `hilb_files` can be met: two files with two rows each, `ω = 1` and `ω = 2`. -/
example (fs : Files) (ha : fs ['a'] = some (numText [] (['1', '0', '2', '3'].map dig))) (hb : fs ['b'] = some (numText [' '] (['1', '1', '2', '0'].map dig))) :
    ∃ re im, main polySpline fs wide.words = .ok (.files ['c'] re ['d'] im false) := by
  have hl : wide.OK ['h', 'G', 'd', ':', 'v', 'V', 's', ':', 'B', ':', 'o', ':', 'x', ':', 'y', ':'] := by
    intro p hp
    simp only [wide, List.mem_cons, List.not_mem_nil, or_false] at hp
    rcases hp with rfl | rfl | rfl | rfl | rfl
    · exact ⟨by simp, (kind_iff _ _).2.1 (by decide), by simp⟩
    · exact .inl (by decide)
    · exact .inl (by decide)
    · exact .inl (by decide)
    · exact .inl (by decide)
  have hv : ∀ c : Char, Dec.value (dig c).1.val = (natValue [c] : ℚ) := by
    intro c
    simp [dig, DataFile.Lit.val, DataFile.exVal, DataFile.Lit.frac, Table.Dec.value]
  have v0 : natValue ['0'] = 0 := by decide
  have v1 : natValue ['1'] = 1 := by decide
  have v2 : natValue ['2'] = 2 := by decide
  have v3 : natValue ['3'] = 3 := by decide
  have hs : sideBySide (rows2 (nums (['1', '0', '2', '3'].map dig))) (rows2 (nums (['1', '1', '2', '0'].map dig))) = [(1, 1, 0, 1), (2, 2, 3, 0)] := by
    simp only [nums, List.map_cons, List.map_nil, hv, rows2, sideBySide, List.zipWith, v0, v1, v2, v3, Nat.cast_ofNat, Nat.cast_one, Nat.cast_zero]
  obtain ⟨gs, -, h⟩ := hilb_files (S := polySpline) (fs := fs) (l := wide) (d := none) (a := ['a']) (b := ['b']) (c := ['c']) (e := ['d']) poly_contract hl rfl rfl rfl
    (by simp [argsOf, wide, Line.options, Piece.options, plainOpts]) ⟨by simp [argsOf, wide, Line.options, Piece.options, plainOpts], .inl ⟨rfl, rfl⟩⟩ (wide_density _)
    (by simp [Blank]) (dig_items (by decide)) ha (by simp [Blank]; decide) (dig_items (by decide)) hb (by simp [argsOf, wide, Line.options, Piece.options, plainOpts])
    (by simp [argsOf, wide, Line.options, Piece.options, plainOpts]) (by decide) (by decide) (by decide) (by
      rw [hs]
      intro q hq
      have e0 : (hilbOf wide.options).shifty = 0 := by simp [hilbOf, wide, Line.options, Piece.options, plainOpts, numOf, argOf]
      simp only [List.mem_cons, List.not_mem_nil, or_false] at hq
      rcases hq with rfl | rfl
      all_goals
        simp only [inverse, argument, e0]
        norm_num)
  have hb : (!([(1, 1, 0, 1), (2, 2, 3, 0)] : List Row).all agree) = false := by simp [agree]
  rw [hs, hb] at h
  exact ⟨_, _, h⟩

/-! ## Tables that make it fail -/

theorem loadDos_eq {pre : Str} {items : List Item} (hp : Blank pre) (h : Items items) : loadDos (numText pre items) =
    match (rows2 (nums items)).insertionSort pairLE with
    | [] => .error .noData
    | a :: l =>
      if a.1 < ((a :: l).getLast (by simp)).1 then
        (if (a :: l).length < 3 then .error .nullPointer else if increasing (a :: l) then .ok (a :: l) else .error .noSpline)
      else .error .assertion := by
  have e : dosLoop ((numText pre items).length + 1) (numText pre items) = rows2 (nums items) := by
    have := dosLoop_items ((numText pre items).length + 1) (l := items) (r := []) (pre := pre) (by
      have := length_items h
      simp only [numText, List.length_append, itemsText] at *
      omega) hp h (stops_nil _)
    simpa [numText, itemsText] using this
  unfold loadDos
  rw [e]
  cases (rows2 (nums items)).insertionSort pairLE <;> rfl

/-- **C125 (violated).** A density of states given by two points is not refused: a null pointer is used. -/
theorem two_points {pre : Str} {items : List Item} (hp : Blank pre) (h : Items items) (hl : (rows2 (nums items)).length = 2)
    (hd : ((rows2 (nums items)).map Prod.fst).Nodup) : loadDos (numText pre items) = .error .nullPointer := by
  rw [loadDos_eq hp h]
  have ho := sorted_of hd
  have hlen : ((rows2 (nums items)).insertionSort pairLE).length = 2 := by rw [ho.1.length_eq, hl]
  generalize (rows2 (nums items)).insertionSort pairLE = l at *
  cases l with
  | nil => simp at hlen
  | cons a t =>
    simp only
    rw [if_pos (first_lt_last ho.2 (by omega)), if_pos (by omega)]

/-- **C125 (violated).** A table in which an abscissa occurs twice is not refused: the spline is used without having been set up. -/
theorem repeated_abscissa {pre : Str} {items : List Item} (hp : Blank pre) (h : Items items) (hl : 3 ≤ (rows2 (nums items)).length)
    (hd : ¬ ((rows2 (nums items)).map Prod.fst).Nodup) (hne : ∃ a ∈ rows2 (nums items), ∃ b ∈ rows2 (nums items), a.1 ≠ b.1) :
    loadDos (numText pre items) = .error .noSpline := by
  rw [loadDos_eq hp h]
  have hperm := List.perm_insertionSort pairLE (rows2 (nums items))
  have hs := List.pairwise_insertionSort pairLE (rows2 (nums items))
  have hlen := hperm.length_eq
  have hn : ¬ (((rows2 (nums items)).insertionSort pairLE).map Prod.fst).Nodup := by rwa [(hperm.map Prod.fst).nodup_iff]
  obtain ⟨p, hp', q, hq', hpq⟩ := hne
  replace hp' := hperm.mem_iff.2 hp'
  replace hq' := hperm.mem_iff.2 hq'
  generalize (rows2 (nums items)).insertionSort pairLE = l at *
  cases l with
  | nil => simp at hlen; omega
  | cons a t =>
    simp only
    have hle : ∀ x ∈ a :: t, a.1 ≤ x.1 ∧ x.1 ≤ ((a :: t).getLast (by simp)).1 := by
      intro x hx
      have mono : ∀ u v : ℚ × ℚ, pairLE u v → u.1 ≤ v.1 := by
        rintro u v (h | h)
        · exact h.le
        · exact h.1.le
      constructor
      · rcases List.mem_cons.1 hx with rfl | hx
        · exact le_refl _
        · exact mono _ _ ((List.pairwise_cons.1 hs).1 x hx)
      · have hcat := List.dropLast_concat_getLast (l := a :: t) (by simp)
        have hs' := hs
        rw [← hcat, List.pairwise_append] at hs'
        rw [← hcat] at hx
        rcases List.mem_append.1 hx with hx | hx
        · exact mono _ _ (hs'.2.2 x hx _ (by simp))
        · simp at hx; rw [hx]
    have hlt : a.1 < ((a :: t).getLast (by simp)).1 := by
      have h1 := hle p hp'
      have h2 := hle q hq'
      by_contra hc
      exact hpq (by linarith [h1.1, h1.2, h2.1, h2.2, not_lt.1 hc])
    have hinc : ¬ increasing (a :: t) = true := by
      rw [increasing_iff]
      intro hinc
      apply hn
      rw [List.Nodup, List.pairwise_map]
      exact hinc.imp fun h => ne_of_lt h
    rw [if_pos hlt, if_neg (by omega), if_neg hinc]

/-! ## Input that is not used -/

variable (S : Spline) (fs : Files)

/-- A command line that consists of operands. -/
theorem plain_command {ops : List Str} (h : ∀ f ∈ ops, f.head? ≠ some '-') :
    ∃ l : Line, l.words = ops ∧ l.operands = ops ∧ l.options = [] ∧ l.OK ['h', 'G', 'd', ':', 'v', 'V', 's', ':', 'B', ':', 'o', ':', 'x', ':', 'y', ':'] := by
  refine ⟨⟨ops.map .operand, none⟩, ?_, ?_, ?_, ?_⟩
  · simp [Line.words, List.flatMap_map, Piece.words]
  · simp [Line.operands, List.flatMap_map, Piece.operands]
  · simp [Line.options, List.flatMap_map, Piece.options]
  · intro p hp
    obtain ⟨f, hf, rfl⟩ := List.mem_map.1 hp
    exact .inl (h f hf)

/-- **C125 (violated).** A comment ends the input without a message: everything after it is lost, and the program ends with success. -/
theorem comment_ends {f : Str} (hf : f.head? ≠ some '-') {pre : Str} {items : List Item} (hp : Blank pre) (h : Items items) (hw : ∀ p ∈ items, p.2 ≠ []) (rest : Str)
    (hfs : fs f = some (numText pre items ++ '#' :: rest)) :
    main S fs [f] = .ok (.stream none ((rows3 (nums items)).map fun q => (q.1, shown false (hilbert S none {} (q.2.1 : ℚ) (q.2.2 : ℚ))))) := by
  obtain ⟨l, h1, h2, h3, h4⟩ := plain_command (ops := [f]) (by simpa using hf)
  unfold main
  rw [← h1, (hilb_command l h4 (by rw [h3]; rfl) (by rw [h3]; rfl) _).2 (.inl ⟨_, h2, rfl⟩), h3]
  have e : hilbOf [] = {} := rfl
  rw [e]
  simp only [work, List.any_nil, Bool.false_eq_true, if_false, loadAll]
  rw [trunc_not (by simp), hfs]
  simp only
  have hlen : items.length < 3 * ((numText pre items ++ '#' :: rest).length + 1) := by
    have := length_items h
    simp only [numText, List.length_append, itemsText] at *
    omega
  generalize (numText pre items ++ '#' :: rest).length + 1 = n at *
  have ht : numText pre items ++ '#' :: rest = pre ++ (itemsText items ++ '#' :: rest) := by simp [numText, itemsText]
  rw [ht, streamLoop_items _ n hlen hp h ⟨by simpa using Table.readDec_hash (ws := []) (by simp [Blank]) rest, fun _ => hw⟩]
  rfl

/-- **C125 (violated).** `hilb -o f f` writes to the file that it should read, and finds nothing in it. -/
theorem output_is_input {f : Str} (hf : f.head? ≠ some '-') : main S fs [['-', 'o'], f, f] = .ok (.stream (some f) []) := by
  have hl : (⟨[.apart [] 'o' f, .operand f], none⟩ : Line).OK ['h', 'G', 'd', ':', 'v', 'V', 's', ':', 'B', ':', 'o', ':', 'x', ':', 'y', ':'] := by
    intro p hp
    simp only [List.mem_cons, List.not_mem_nil, or_false] at hp
    rcases hp with rfl | rfl
    · exact ⟨by simp, (kind_iff _ _).2.1 (by decide)⟩
    · exact .inl hf
  unfold main
  have e := (hilb_command _ hl rfl rfl _).2 (.inl ⟨_, rfl, rfl⟩)
  have e' : hilb.main [['-', 'o'], f, f] = .ok (.stream (hilbOf [('o', some f)]) f) := e
  rw [e']
  have e1 : (hilbOf [('o', some f)]).outs = [f] := rfl
  have e2 : (hilbOf [('o', some f)]).dos = [] := rfl
  simp only [work, e1, e2, List.any_nil, Bool.false_eq_true, if_false, loadAll, trunc, List.mem_singleton, if_true]
  rfl

/-- **C125 (violated).** The lines of the two parts of the self-energy are combined although their frequencies differ, if they are small: `ω` and `ω'` only have to agree to
`10⁻⁶`; the two results are then written with different frequencies. -/
theorem small_labels {a b c e : Str} (hdash : ∀ f ∈ [a, b, c, e], f.head? ≠ some '-') {items items' : List Item} (h : Items items) (h' : Items items') {w w' x y : ℚ}
    (hn : nums items = [w, x]) (hn' : nums items' = [w', y]) (ha : fs a = some (numText [] items)) (hb : fs b = some (numText [] items'))
    (hac : a ≠ c ∧ a ≠ e) (hbc : b ≠ c ∧ b ≠ e) (hce : c ≠ e) (hw : |w - w'| ≤ 1 / 1000000) (hS : Contract S) :
    ∃ g : ℂ, main S fs [a, b, c, e] = .ok (.files c [(w, some (-1 / Real.pi * g.re))] e [(w', some (-1 / Real.pi * g.im))] false) := by
  obtain ⟨l, h1, h2, h3, h4⟩ := plain_command hdash
  have hs : sideBySide (rows2 (nums items)) (rows2 (nums items')) = [(w, w', x, y)] := by rw [hn, hn']; rfl
  have hag : agree (w, w', x, y) = true := decide_eq_true hw
  have hden : Density S (hilbOf l.options) none (semi 1) 1 := by
    have := Density.circle (S := S) (set := hilbOf l.options) (D := 1) (by norm_num) (by rw [h3]; rfl) (by rw [h3]; norm_num [hilbOf, lastAmong])
    simpa using this
  obtain ⟨gs, k1, k2⟩ := hilb_files (S := S) (fs := fs) (l := l) (d := none) hS h4 (by rw [h3]; rfl) (by rw [h3]; rfl) h2 (by rw [h3]; simp [argsOf])
    ⟨by rw [h3]; simp [argsOf], .inl ⟨by rw [h3]; rfl, rfl⟩⟩ hden (by simp [Blank]) h ha (by simp [Blank]) h' hb (by rw [h3]; simp [argsOf])
    (by rw [h3]; simp [argsOf]) hac hbc hce (by
      rw [hs]
      intro q hq
      simp only [List.mem_singleton] at hq
      subst hq
      have e0 : (hilbOf l.options).shifty = 0 := by rw [h3]; rfl
      have := min_le_right (y : ℝ) (-1e-8)
      simp only [inverse, argument, e0]
      have h8 : (0 : ℝ) < 1e-8 := by norm_num
      push_cast
      intro h0
      linarith)
  rw [hs] at k1 k2
  have ht : [(w, w', x, y)].takeWhile agree = [(w, w', x, y)] := by rw [List.takeWhile_cons, hag]; rfl
  rw [ht] at k1 k2
  cases k1 with
  | @cons _ g _ gs' hg hgs =>
    cases hgs
    refine ⟨g, ?_⟩
    rw [← h1, k2]
    simp [hag, h3, given, factor]

/-! ## Real arguments -/

/-- **C125 (violated).** For a real argument outside the band the program prints zero, while the Green's function is not zero. -/
theorem real_axis {x y : Lit} (hx : x.OK) (hy : y.OK) (h1 : 1 < Dec.value x.val) (h0 : Dec.value y.val = 0) (hd : x.text.head? ≠ some '-') (hd' : y.text.head? ≠ some '-') :
    main S fs [['-', 'G'], x.text, y.text] = .ok (.one none (some [0, 0])) ∧ 0 < (green (semi 1) 1 ((Dec.value x.val : ℚ) : ℝ)).re := by
  constructor
  · have hl : (⟨[.flags ['G'], .operand x.text, .operand y.text], none⟩ : Line).OK ['h', 'G', 'd', ':', 'v', 'V', 's', ':', 'B', ':', 'o', ':', 'x', ':', 'y', ':'] := by
      intro p hp
      simp only [List.mem_cons, List.not_mem_nil, or_false] at hp
      rcases hp with rfl | rfl | rfl
      · exact ⟨by simp, by intro f hf; simp at hf; subst hf; exact (kind_iff _ _).1.1 (by decide)⟩
      · exact .inl hd
      · exact .inl hd'
    unfold main
    have e' : hilb.main [['-', 'G'], x.text, y.text] = .ok (.one (hilbOf [('G', none)]) (num x.text) (num y.text)) :=
      (hilb_command _ hl rfl rfl _).2 (.inr (.inl ⟨_, _, rfl, rfl⟩))
    rw [e', num_lit hx, num_lit hy, h0]
    have e1 : (hilbOf [('G', none)]).outs = [] := rfl
    have e2 : (hilbOf [('G', none)]).dos = [] := rfl
    have e3 : (hilbOf [('G', none)]).G = true := rfl
    have e4 : (hilbOf [('G', none)]).scale = some 1 := rfl
    have e5 : (hilbOf [('G', none)]).width = some 1 := rfl
    have e6 : (hilbOf [('G', none)]).shiftx = 0 := rfl
    have e7 : (hilbOf [('G', none)]).shifty = 0 := rfl
    have h1' : (1 : ℝ) < ((Dec.value x.val : ℚ) : ℝ) := by exact_mod_cast h1
    simp only [work, e1, e2, e3, List.any_nil, Bool.false_eq_true, if_false, loadAll, hilbert, e4, e5, e6, e7, transform]
    rw [if_pos (by norm_num), if_pos (.inr (by push_cast; linarith))]
    rfl
  · generalize Dec.value x.val = q at *
    have hq : (1 : ℝ) < (q : ℝ) := by exact_mod_cast h1
    have e : green (semi 1) 1 ((q : ℝ) : ℂ) = ((∫ w in (-1 : ℝ)..1, semi 1 w / ((q : ℝ) - w) : ℝ) : ℂ) := by
      unfold green
      rw [← intervalIntegral.integral_ofReal]
      congr 1
      funext w
      push_cast
      rfl
    rw [e, Complex.ofReal_re]
    have hne : ∀ w ∈ Set.Icc (-1 : ℝ) 1, (0 : ℝ) < (q : ℝ) - w := fun w hw => by linarith [hw.2]
    apply intervalIntegral.integral_pos (by norm_num)
    · apply ContinuousOn.div
      · exact (by unfold semi; fun_prop : Continuous (semi 1)).continuousOn
      · fun_prop
      · exact fun w hw => (hne w hw).ne'
    · intro w hw
      refine div_nonneg ?_ (hne w ⟨hw.1.le, hw.2⟩).le
      unfold semi
      positivity
    · refine ⟨0, by norm_num, div_pos ?_ (hne 0 (by norm_num))⟩
      unfold semi
      have := Real.pi_pos
      norm_num
      positivity

theorem dig_value (c : Char) : Dec.value (dig c).1.val = (natValue [c] : ℚ) := by
  simp [dig, DataFile.Lit.val, DataFile.exVal, DataFile.Lit.frac, Table.Dec.value]

/-- `hilb -G 2 0`. -/
example : main S fs [['-', 'G'], ['2'], ['0']] = .ok (.one none (some [0, 0])) := by
  have h2 : (dig '2').1.text = ['2'] := by simp [dig, DataFile.Lit.text, DataFile.exText]
  have h0 : (dig '0').1.text = ['0'] := by simp [dig, DataFile.Lit.text, DataFile.exText]
  have := (real_axis S fs (x := (dig '2').1) (y := (dig '0').1) (dig_items (cs := ['2']) (by decide)).1 (dig_items (cs := ['0']) (by decide)).1
    (by rw [dig_value, show natValue ['2'] = 2 from by decide]; norm_num) (by rw [dig_value, show natValue ['0'] = 0 from by decide]; norm_num)
    (by rw [h2]; decide) (by rw [h0]; decide)).1
  rwa [h2, h0] at this

/-- A table with two points. -/
example : loadDos (numText [] (['1', '5', '2', '5'].map dig)) = .error .nullPointer := by
  refine two_points (by simp [Blank]) (dig_items (by decide)) rfl ?_
  simp only [nums, List.map_cons, List.map_nil, dig_value, rows2, show natValue ['1'] = 1 from by decide, show natValue ['2'] = 2 from by decide]
  norm_num

end Verif.Hrun
