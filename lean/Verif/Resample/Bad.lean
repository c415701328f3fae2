import Verif.Resample.Props
import Mathlib.Algebra.Order.Ring.Rat
import Mathlib.Tactic.NormNum
import Mathlib.Tactic.Linarith
/-!
# What goes wrong with `resample`, and examples
-/

namespace Verif.Resample
open Verif.Text (Str natStr natValue natStr_value isDigit)
open Verif.DataFile (Dec Lit readDec skipComments Blank reads_lit sep_ws sep_cons)
open Verif.Table

variable {K : Type} [LinearOrder K]

theorem reads_bad (t : List (Lit × Lit)) (h : ∀ p ∈ t, p.1.OK ∧ p.2.OK) (x : Lit) (hx : x.OK) (rest : Str) (hrest : readDec rest = none)
    (n : Nat) (hn : t.length < n) (pre : Str) (hp : pre = [] ∨ pre = ['\n']) :
    tableLoop n (pre ++ (fileText (t.map written) ++ (x.text ++ ' ' :: rest))) = none := by
  have hpre : ∀ c ∈ pre, c = ' ' ∨ c = '\t' ∨ c = '\n' := by
    intro c hc
    rcases hp with rfl | rfl
    · simp at hc
    · exact Or.inr (Or.inr (List.mem_singleton.mp hc))
  have skipLit : ∀ (y : Lit) (_ : y.OK) (s : Str), skipComments (y.text ++ s).length (y.text ++ s) = y.text ++ s := by
    intro y hy s
    obtain ⟨c, u, hc, hsp, hhash⟩ := lit_head hy
    rw [hc, List.cons_append, List.length_cons, skipComments, if_neg, if_neg hhash]
    rintro (rfl | rfl | rfl) <;> exact absurd hsp (by decide)
  have hne : ∀ (y : Lit) (_ : y.OK) (s : Str), y.text ++ s ≠ [] := by
    intro y hy s e
    exact lit_ne hy (List.append_eq_nil_iff.mp e).1
  induction t generalizing n pre with
  | nil =>
    obtain ⟨n, rfl⟩ : ∃ m, n = m + 1 := ⟨n - 1, by omega⟩
    rw [tableLoop_skip _ (skip_plain hpre _), List.map_nil, show fileText [] = [] from rfl, List.nil_append]
    have h1 : readDec (x.text ++ ' ' :: rest) = some (x.val, ' ' :: rest) := reads_lit x hx _ (sep_cons (by decide))
    have h2 : readDec (' ' :: rest) = none := by
      rw [show ' ' :: rest = [' '] ++ rest from rfl, readDec_blank (by intro c hc; rw [List.mem_singleton.mp hc]; decide)]
      exact hrest
    unfold tableLoop
    rw [skipLit x hx, if_neg (hne x hx _), h1]
    dsimp only
    rw [h2]
  | cons p t ih =>
    obtain ⟨n, rfl⟩ : ∃ m, n = m + 1 := ⟨n - 1, by omega⟩
    rw [List.length_cons] at hn
    obtain ⟨hp1, hp2⟩ := h p (by simp)
    rw [tableLoop_skip _ (skip_plain hpre _), List.map_cons, fileText_cons, List.append_assoc, List.cons_append]
    have e : (written p).text ++ '\n' :: (fileText (t.map written) ++ (x.text ++ ' ' :: rest)) =
        p.1.text ++ ([' '] ++ (p.2.text ++ '\n' :: (fileText (t.map written) ++ (x.text ++ ' ' :: rest)))) := by
      simp [written, LineT.text]
    have hb : Blank [' '] := by intro c hc; rw [List.mem_singleton.mp hc]; decide
    rw [e]
    unfold tableLoop
    rw [skipLit _ hp1, if_neg (hne _ hp1 _), reads_lit p.1 hp1 _ (sep_ws hb (by simp))]
    dsimp only
    rw [readDec_blank hb, reads_lit p.2 hp2 _ (sep_cons (by decide))]
    dsimp only
    have := ih (fun q hq => h q (by simp [hq])) n (by omega) ['\n'] (Or.inr rfl) (by simp)
    rw [List.singleton_append] at this
    rw [this]
    rfl

/-- **C115.** Without `-e`, a grid with a point outside the range of the table gives an output file that cannot be read by this program or any other that uses the same
reader; the program reports success. -/
theorem resample_nan (F : Fmt K) (S : Spline K) (hS : Interp S) (s : Settings K) (hs : s.extrapolate = false) (im grid : List (K × K)) (hd : Data im)
    (hgrid : ∃ p ∈ grid, (∀ q ∈ im, p.1 < q.1) ∨ ∀ q ∈ im, q.1 < p.1)
    (hp : ∀ x, (F.out s.prec x).OK) (hnan : ∀ t, readDec (F.nan ++ t) = none) :
    ∃ r, onTables S s im grid = .ok r ∧ load F (tableText F s.prec r) = none := by
  obtain ⟨r, hr⟩ := (resample_accepts S s im grid).mpr hd
  refine ⟨r, hr, ?_⟩
  obtain ⟨hx, hR⟩ := resample_values S hS s im grid r hr
  obtain ⟨p, hpg, hout⟩ := hgrid
  have hex : ∃ q ∈ r, q.2 = none := by
    have hm : p.1 ∈ r.map Prod.fst := hx ▸ List.mem_map_of_mem hpg
    obtain ⟨q, hq, hqp⟩ := List.mem_map.mp hm
    refine ⟨q, hq, ?_⟩
    by_contra hne
    rcases (resample_numbers S hS s im grid r hr q hq).mp hne with h | ⟨⟨a, ha, h1⟩, b, hb, h2⟩
    · rw [hs] at h; cases h
    · rw [hqp] at h1 h2
      rcases hout with h | h
      · exact absurd (h a ha) (not_lt.mpr h1)
      · exact absurd (h b hb) (not_lt.mpr h2)
  clear hx hR hpg hout hr
  obtain ⟨a, x, b, rfl⟩ : ∃ (a : List (K × K)) (x : K) (b : List (K × Option K)), r = (a.map fun p => (p.1, some p.2)) ++ (x, none) :: b := by
    induction r with
    | nil => obtain ⟨q, hq, _⟩ := hex; simp at hq
    | cons c r ih =>
      obtain ⟨x, y⟩ := c
      cases y with
      | none => exact ⟨[], x, r, rfl⟩
      | some y =>
        obtain ⟨q, hq, hqn⟩ := hex
        rcases List.mem_cons.mp hq with rfl | hq
        · cases hqn
        · obtain ⟨a, z, b, rfl⟩ := ih ⟨q, hq, hqn⟩
          exact ⟨(x, y) :: a, z, b, rfl⟩
  have e : tableText F s.prec ((a.map fun p => (p.1, some p.2)) ++ (x, none) :: b) =
      fileText ((a.map fun p => (F.out s.prec p.1, F.out s.prec p.2)).map written) ++
        ((F.out s.prec x).text ++ ' ' :: (F.nan ++ '\n' :: tableText F s.prec b)) := by
    rw [← tableText_numbers]
    unfold tableText
    rw [List.flatMap_append, List.flatMap_cons]
    simp [numText]
  have hlen := length_fileText ((a.map fun p => (F.out s.prec p.1, F.out s.prec p.2)).map written)
  rw [load, e, readTable]
  have := reads_bad (a.map fun p => (F.out s.prec p.1, F.out s.prec p.2))
    (by intro q hq; obtain ⟨p, _, rfl⟩ := List.mem_map.mp hq; exact ⟨hp _, hp _⟩) (F.out s.prec x) (hp x) (F.nan ++ '\n' :: tableText F s.prec b) (hnan _)
    ((fileText ((a.map fun p => (F.out s.prec p.1, F.out s.prec p.2)).map written) ++
        ((F.out s.prec x).text ++ ' ' :: (F.nan ++ '\n' :: tableText F s.prec b))).length + 1)
    (by rw [List.length_append]; rw [List.length_map] at hlen; omega) [] (Or.inl rfl)
  rw [List.nil_append] at this
  rw [this]
  rfl

/-- The two texts of NaN are not read as numbers. -/
theorem nan_text : (∀ t, readDec ("nan".toList ++ t) = none) ∧ ∀ t, readDec ("-nan".toList ++ t) = none :=
  ⟨fun _ => rfl, fun _ => rfl⟩

/-- **C115.** A grid file with one column is accepted: every second number is taken for a value, and the output has half the points. -/
theorem resample_one_column : readTable "1\n2\n3\n4\n".toList = some [(⟨1, 0⟩, ⟨2, 0⟩), (⟨3, 0⟩, ⟨4, 0⟩)] := by decide +kernel

theorem nearest {t : ℚ} {m : ℤ} (h : |t - m| < 1 / 2) (k : ℤ) (hk : k ≠ m) : |t - m| < |t - k| := by
  have h1 : (1 : ℚ) ≤ |(m : ℚ) - k| := by
    have : (1 : ℤ) ≤ |m - k| := Int.one_le_abs (sub_ne_zero.mpr (Ne.symm hk))
    calc (1 : ℚ) ≤ ((|m - k| : ℤ) : ℚ) := by exact_mod_cast this
      _ = |(m : ℚ) - k| := by push_cast; rfl
  have h2 : |(m : ℚ) - k| ≤ |t - m| + |t - k| := by
    calc |(m : ℚ) - k| = |(t - k) - (t - m)| := by congr 1; ring
      _ ≤ |t - k| + |t - m| := abs_sub _ _
      _ = |t - m| + |t - k| := add_comm _ _
  linarith

/-- **C115.** Sixteen digits, the default of `writetable`, are not enough for double precision. The double nearest to `0.1 + 0.2`, `5404319552844596 / 2^54`, is between
`0.1` and `1`, where sixteen digits are multiples of `10^-16`; the nearest is `0.3000000000000000`; among the doubles, which here are multiples of `2^-54`, the nearest
to this is another one. -/
theorem sixteen_digits :
    (∀ k : ℤ, k ≠ 3000000000000000 → |(5404319552844596 / 2 ^ 54 : ℚ) * 10 ^ 16 - (3000000000000000 : ℤ)| < |(5404319552844596 / 2 ^ 54 : ℚ) * 10 ^ 16 - k|) ∧
    (∀ k : ℤ, k ≠ 5404319552844595 → |(3000000000000000 / 10 ^ 16 : ℚ) * 2 ^ 54 - (5404319552844595 : ℤ)| < |(3000000000000000 / 10 ^ 16 : ℚ) * 2 ^ 54 - k|) :=
  ⟨fun k hk => nearest (by rw [abs_lt]; constructor <;> norm_num) k hk, fun k hk => nearest (by rw [abs_lt]; constructor <;> norm_num) k hk⟩

/-! ## Examples -/

/-- An interpolation that meets the contract: the value at the next lower point. -/
def stepSpline : Spline K := fun l x =>
  if l.any (fun p => decide (x ≤ p.1)) then ((l.filter fun p => decide (p.1 ≤ x)).getLast?).map Prod.snd else none

theorem step_interp : Interp (stepSpline (K := K)) := by
  refine ⟨?_, ?_, ?_⟩
  · intro l _ hlt p hp
    unfold stepSpline
    rw [if_pos (List.any_eq_true.mpr ⟨p, hp, by simp⟩)]
    obtain ⟨a, b, rfl⟩ := List.append_of_mem hp
    rw [List.map_append, List.map_cons, List.pairwise_append, List.pairwise_cons] at hlt
    have hb : b.filter (fun q => decide (q.1 ≤ p.1)) = [] := by
      rw [List.filter_eq_nil_iff]
      intro q hq
      have := hlt.2.1.1 q.1 (List.mem_map_of_mem hq)
      simpa using this
    rw [List.filter_append, List.filter_cons_of_pos (by simp), hb, List.getLast?_append]
    rfl
  · rintro l _ _ x ⟨p, hp, hpx⟩ ⟨q, hq, hxq⟩
    unfold stepSpline
    rw [if_pos (List.any_eq_true.mpr ⟨q, hq, by simpa using hxq⟩)]
    intro h
    rw [Option.map_eq_none_iff, List.getLast?_eq_none_iff, List.filter_eq_nil_iff] at h
    exact h p hp (by simpa using hpx)
  · rintro l _ _ x (h | h)
    · unfold stepSpline
      have : l.filter (fun p => decide (p.1 ≤ x)) = [] := by
        rw [List.filter_eq_nil_iff]
        intro p hp
        simpa using h p hp
      rw [this]
      simp
    · unfold stepSpline
      rw [if_neg]
      intro h'
      obtain ⟨p, hp, hpx⟩ := List.any_eq_true.mp h'
      exact absurd (h p hp) (not_lt.mpr (by simpa using hpx))

/-- Whole numbers, printed exactly. -/
def whole : Fmt Int where
  val d := d.m * 10 ^ d.e.toNat
  out _ x := ⟨decide (x < 0), natStr x.natAbs, none, none⟩
  stod s := some (natValue s)
  atoi s := natValue s
  nan := "nan".toList

theorem whole_prints (prec x : Int) : whole.Prints prec x := by
  refine ⟨⟨Verif.Text.natStr_isDigit _, by simp [Lit.frac, whole], Or.inl (Verif.Text.natStr_ne_nil _), by simp [whole, Verif.DataFile.ExOK]⟩, ?_⟩
  simp only [whole, Lit.val, Lit.frac, List.append_nil, natStr_value, Verif.DataFile.exVal, List.length_nil]
  by_cases h : x < 0
  · rw [if_pos (by simpa using h)]
    simp only [Int.sub_self, Int.toNat_zero, Nat.cast_zero, pow_zero]
    omega
  · rw [if_neg (by simpa using h)]
    simp only [Int.sub_self, Int.toNat_zero, Nat.cast_zero, pow_zero]
    omega

/-- A table of five points in the order of a file, and a grid that is larger. -/
def demo : List (Int × Int) := [(3, 30), (1, 10), (2, 20), (5, 50), (4, 40)]

theorem demo_data : Data demo := ⟨by decide, by decide⟩

example : onTables stepSpline ⟨16, true, none, some 7⟩ demo [(6, 0), (2, 0), (0, 0)] = .ok [(6, some 7), (2, some 20), (0, some 10)] := by decide
example : onTables stepSpline ⟨16, false, none, none⟩ demo [(6, 0), (2, 0), (0, 0)] = .ok [(6, none), (2, some 20), (0, none)] := by decide

/-- C115: the hypotheses are met. -/
example : ∃ r, onTables stepSpline ⟨16, false, none, none⟩ demo [(2, 0), (9, 0)] = .ok r ∧ load whole (tableText whole 16 r) = none :=
  resample_nan whole stepSpline step_interp ⟨16, false, none, none⟩ rfl demo _ demo_data ⟨(9, 0), by simp, Or.inr (by decide)⟩
    (fun x => (whole_prints 16 x).1) nan_text.1

/-- C114: a file is resampled on its own grid and keeps its meaning. -/
example : ∃ fs', onFiles whole stepSpline ⟨16, false, none, none⟩ "t".toList "t".toList "t".toList
      (fun n => if n = "t".toList then some (fileText (demo.map fun p => .row [' '] (whole.out 0 p.1) ['\t'] (whole.out 0 p.2) [])) else none) = .ok fs' ∧
    ∃ u, fs' "t".toList = some u ∧ load whole u = some demo := by
  generalize hfs : (fun n : Str => if n = "t".toList then
    some (fileText (demo.map fun p => .row [' '] (whole.out 0 p.1) ['\t'] (whole.out 0 p.2) [])) else none) = fs
  have ok : ∀ l ∈ (demo.map fun p => LineT.row [' '] (whole.out 0 p.1) ['\t'] (whole.out 0 p.2) []), l.OK := by
    intro l hl
    obtain ⟨p, _, rfl⟩ := List.mem_map.mp hl
    exact ⟨by simp [Plain], (whole_prints 0 _).1, by simp [Plain], by simp, (whole_prints 0 _).1, by simp [Plain]⟩
  have hv : (values (demo.map fun p => LineT.row [' '] (whole.out 0 p.1) ['\t'] (whole.out 0 p.2) [])).map (fun p => (whole.val p.1, whole.val p.2)) = demo := by
    have e : ∀ p : Int × Int, (whole.val (whole.out 0 p.1).val, whole.val (whole.out 0 p.2).val) = p := fun p =>
      Prod.ext (whole_prints 0 p.1).2 (whole_prints 0 p.2).2
    simp only [demo, values, List.map_cons, List.map_nil, List.filterMap_cons, List.filterMap_nil, LineT.value]
    simp only [fun a b : Int => e (a, b)]
  obtain ⟨fs', h1, _, h3⟩ := resample_same_file whole stepSpline step_interp ⟨16, false, none, none⟩ "t".toList fs _ demo (by rw [← hfs]; exact if_pos rfl) ok hv demo_data
    (fun p _ => ⟨whole_prints 16 _, whole_prints 16 _⟩)
  exact ⟨fs', h1, h3⟩

example : parse whole [.a "5".toList, .e, .v, .a "7".toList] ["i".toList, "g".toList, "o".toList] =
    .ok (⟨16, true, some 7, none⟩, "i".toList, "g".toList, "o".toList) := by rfl
example : parse whole [.a "5".toList] ["i".toList, "g".toList, "o".toList] = .error .needsE := by rfl

end Verif.Resample
