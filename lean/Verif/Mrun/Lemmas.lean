import Verif.Mrun.Spec
import Verif.DataFile.Lemmas
/-!
# Helper lemmas for the program `matrix`
-/

namespace Verif.Mrun
open Verif.Text
open Verif.DataFile (Dec Lit Blank readDec reads_lit sep_ws sep_nil sep_blank)
open Verif.Table (Dec.value)
open Verif.Calc (Env Ev)

theorem lit_pos (l : Lit) (h : l.OK) : 1 ≤ l.text.length := by
  obtain ⟨neg, ip, fp, ex⟩ := l
  obtain ⟨-, -, h, -⟩ := h
  simp only [Lit.text, Lit.frac, List.length_append] at h ⊢
  rcases h with h | h
  · have := List.length_pos_iff.2 h
    omega
  · cases fp with
    | none => exact absurd rfl h
    | some f => simp; omega

theorem readDec_space {w : Str} (hw : Blank w) (s : Str) : readDec (w ++ s) = readDec s := by
  unfold readDec
  rw [Verif.DataFile.dropWhile_blank hw]

theorem readDec_blank {w : Str} (hw : Blank w) : readDec w = none := by
  have := readDec_space hw []
  rw [List.append_nil] at this
  rw [this]
  rfl

/-- Numbers followed by something that is not one. -/
theorem numLoop_items (items : List (Str × Lit)) (g : Str) (hg : readDec g = none) (hs : Verif.DataFile.Sep g) (h : ∀ p ∈ items, Blank p.1 ∧ p.2.OK)
    (ht : ∀ p ∈ items.tail, p.1 ≠ []) (n : Nat) (hn : items.length < n) :
    numLoop n ((items.flatMap fun p => p.1 ++ p.2.text) ++ g) = items.map fun p => p.2.val := by
  induction items generalizing n with
  | nil =>
    obtain ⟨n, rfl⟩ : ∃ m, n = m + 1 := ⟨n - 1, by simp at hn; omega⟩
    simp [numLoop, hg]
  | cons p items ih =>
    obtain ⟨n, rfl⟩ : ∃ m, n = m + 1 := ⟨n - 1, by simp at hn; omega⟩
    obtain ⟨h1, h2⟩ := h p (by simp)
    have hsep : Verif.DataFile.Sep ((items.flatMap fun p => p.1 ++ p.2.text) ++ g) := by
      cases items with
      | nil => simpa using hs
      | cons q l =>
        rw [List.flatMap_cons, List.append_assoc, List.append_assoc]
        exact sep_ws (h q (by simp)).1 (ht q (by simp))
    rw [List.flatMap_cons, List.append_assoc, List.append_assoc, numLoop, readDec_space h1, reads_lit p.2 h2 _ hsep]
    dsimp only
    rw [ih (fun q hq => h q (by simp [hq])) (fun q hq => ht q (by simp; exact List.mem_of_mem_tail hq)) n (by simp at hn; omega)]
    rfl

theorem items_length (items : List (Str × Lit)) (h : ∀ p ∈ items, Blank p.1 ∧ p.2.OK) : items.length ≤ (items.flatMap fun p => p.1 ++ p.2.text).length := by
  induction items with
  | nil => simp
  | cons p items ih =>
    have := lit_pos p.2 (h p (by simp)).2
    have := ih fun q hq => h q (by simp [hq])
    simp only [List.flatMap_cons, List.length_append, List.length_cons]
    omega

theorem numbers_items (items : List (Str × Lit)) (g : Str) (hg : readDec g = none) (hs : Verif.DataFile.Sep g) (h : ∀ p ∈ items, Blank p.1 ∧ p.2.OK)
    (ht : ∀ p ∈ items.tail, p.1 ≠ []) : numbers ((items.flatMap fun p => p.1 ++ p.2.text) ++ g) = items.map fun p => p.2.val := by
  refine numLoop_items items g hg hs h ht _ ?_
  have := items_length items h
  rw [List.length_append]
  omega

theorem numbers_lists {s : Str} {l : List Dec} (h : Lists s l) : numbers s = l := by
  obtain ⟨items, tail, rfl, hb, h1, h2, rfl⟩ := h
  exact numbers_items items tail (readDec_blank hb) (sep_blank hb) h1 h2

/-- The first number is the one that is read alone. -/
theorem number_head (s : Str) : number s = (numbers s).head?.getD ⟨0, 0⟩ := by
  rw [number, numbers, numLoop]
  cases readDec s with
  | none => rfl
  | some x => rfl

theorem number_lists {s : Str} {d : Dec} {l : List Dec} (h : Lists s (d :: l)) : number s = d := by
  rw [number_head, numbers_lists h]
  rfl

theorem single_begins {fs : Files} {name : Str} {d : Dec} (h : Begins fs name d) : single fs name = .ok d := by
  obtain ⟨l, s, h1, h2⟩ := h
  rw [single, h1]
  dsimp only
  rw [number_lists h2]

theorem table_holds {fs : Files} {name : Str} {l : List Dec} (h : Holds fs name l) : table fs name = .ok l := by
  obtain ⟨s, h1, h2⟩ := h
  rw [table, h1]
  dsimp only
  rw [numbers_lists h2]

theorem each_ok {f : Nat → Except Fail Channel} {g : Nat → Channel} {l : List Nat} (h : ∀ n ∈ l, f n = .ok (g n)) : each f l = .ok (l.map g) := by
  induction l with
  | nil => rfl
  | cons n l ih =>
    rw [each, h n (by simp)]
    dsimp only
    rw [ih fun m hm => h m (by simp [hm])]
    rfl

theorem each_all {f : Nat → Except Fail Channel} {l : List Nat} {cs : List Channel} (h : each f l = .ok cs) : ∀ n ∈ l, ∃ c, f n = .ok c := by
  induction l generalizing cs with
  | nil => simp
  | cons n l ih =>
    rw [each] at h
    cases hn : f n with
    | error e => rw [hn] at h; cases h
    | ok a =>
      rw [hn] at h
      dsimp only at h
      cases hl : each f l with
      | error e => rw [hl] at h; cases h
      | ok as =>
        intro m hm
        rcases List.mem_cons.1 hm with rfl | hm
        · exact ⟨a, hn⟩
        · exact ih hl m hm

theorem mem_channels {c : Option Int} {ch : Nat} : ch ∈ (List.range (c.getD 1).toNat).map (· + 1) ↔ 1 ≤ ch ∧ (ch : Int) ≤ c.getD 1 := by
  simp only [List.mem_map, List.mem_range]
  constructor
  · rintro ⟨k, hk, rfl⟩
    omega
  · rintro ⟨h1, h2⟩
    exact ⟨ch - 1, by omega, by omega⟩

theorem name_suffix (base : Str) (c : Option Int) (ch : Nat) : nameOf base c.isSome ch = base ++ suffix c ch := by
  cases c <;> rfl

variable {K : Type} [Field K] [DecidableEq K]

theorem channels_chain {fs : Files} {o : Cmd.CalcSet} {theta : Nat → Dec} {xi zeta : Nat → List Dec} (hs : o.sc = false)
    (h : ChainFiles fs o.channels theta xi zeta) :
    channels fs o = .ok (((List.range (o.channels.getD 1).toNat).map (· + 1)).map fun ch => ⟨theta ch, xi ch, zeta ch, [], [], []⟩) := by
  rw [channels, if_neg (by have := h.1; omega), hs]
  refine each_ok fun ch hch => ?_
  obtain ⟨h1, h2⟩ := mem_channels.1 hch
  obtain ⟨a, b, c, d⟩ := h.2 ch h1 h2
  have a' := single_begins a
  have c' := table_holds c
  have d' := table_holds d
  rw [← name_suffix] at a' c' d'
  simp only [Bool.false_eq_true, if_false]
  change normal fs o.channels.isSome ch = _
  rw [normal]
  erw [a']
  change (if Dec.value (theta ch) < 0 then _ else _) = _
  rw [if_neg (not_lt.2 b)]
  erw [c', d']
  rfl

theorem channels_nambu {fs : Files} {o : Cmd.CalcSet} {v : Nat → Nat → Nat → Dec} {xi zeta delta kappa : Nat → List Dec} (hs : o.sc = true)
    (h : NambuFiles fs o.channels v xi zeta delta kappa) :
    channels fs o = .ok (((List.range (o.channels.getD 1).toNat).map (· + 1)).map fun ch =>
      ⟨⟨0, 0⟩, xi ch, zeta ch, delta ch, kappa ch, [[v ch 1 1, v ch 1 2], [v ch 2 1, v ch 2 2]]⟩) := by
  rw [channels, if_neg (by have := h.1; omega), hs]
  refine each_ok fun ch hch => ?_
  obtain ⟨h1, h2⟩ := mem_channels.1 hch
  obtain ⟨a1, a2, a3, a4, a5, a6, a7, a8⟩ := h.2 ch h1 h2
  have b1 := single_begins a1
  have b2 := single_begins a2
  have b3 := single_begins a3
  have b4 := single_begins a4
  have b5 := table_holds a5
  have b6 := table_holds a6
  have b7 := table_holds a7
  have b8 := table_holds a8
  rw [← name_suffix] at b1 b2 b3 b4 b5 b6 b7 b8
  change nambu fs o.channels.isSome ch = _
  rw [nambu]
  erw [b1, b2, b3, b4, b5, b6, b7, b8]
  rfl

theorem source_ok {fs : Files} {stdin : Str} {ops : List Str} {t : Str} (h : Source fs stdin ops t) : source fs stdin ops = .ok t := by
  rcases h with ⟨rfl, rfl⟩ | ⟨n, rfl, h⟩
  · rfl
  · rw [source, h]

theorem vecText_line (pr : K → Str) (l : List K) : vecText pr l = [' '].intercalate (l.map pr) ++ ['\n'] := by
  induction l with
  | nil => rfl
  | cons x l ih =>
    cases l with
    | nil => simp [vecText, List.intercalate]
    | cons y l =>
      rw [vecText, ih]
      simp [List.intercalate]

theorem matText_lines (pr : K → Str) (pre : Str) (m : List (List K)) (hm : m ≠ []) : pre ++ matText pr pre m = m.flatMap (lineText pr pre) := by
  induction m with
  | nil => exact absurd rfl hm
  | cons r m ih =>
    cases m with
    | nil => simp [matText, lineText, vecText_line]
    | cons r' m =>
      rw [List.flatMap_cons, ← ih (by simp), matText, lineText, vecText_line]
      simp

theorem evText_lines (pr : K → Str) (pre : Str) (e : Ev K) (h : e = .mat [] → pre = []) : evText pr pre e = (rowsOf e).flatMap (lineText pr pre) := by
  cases e with
  | num x => simp [evText, rowsOf, lineText, List.intercalate]
  | vec l => simp [evText, rowsOf, lineText, vecText_line]
  | mat m =>
    by_cases hm : m = []
    · subst hm
      simp [evText, rowsOf, matText, h rfl]
    · exact matText_lines pr pre m hm
  | divZero => rfl
  | notFunction s => rfl

end Verif.Mrun
