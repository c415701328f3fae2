import Verif.Table.Spec
import Verif.DataFile.Parts
/-!
# Properties of the readers of tables (C88)
-/

namespace Verif.Table

open Verif.Text
open Verif.DataFile

/-! ## Helper lemmas -/

theorem plain_blank {ws : Str} (h : Plain ws) : Blank ws := by
  intro c hc
  rcases h c hc with rfl | rfl <;> decide

theorem digit_not {c : Char} (h : isDigit c = true) : isSpace c = false ∧ c ≠ '#' ∧ c ≠ '\n' := by
  refine ⟨digit_not_space h, ?_, ?_⟩ <;> rintro rfl <;> exact absurd h (by decide)

/-- No character of a number is white space or a hash sign. -/
theorem lit_chars {l : Lit} (h : l.OK) : ∀ c ∈ l.text, isSpace c = false ∧ c ≠ '#' ∧ c ≠ '\n' := by
  obtain ⟨neg, ip, fp, ex⟩ := l
  obtain ⟨hip, hfp, _, hex⟩ := h
  intro c hc
  unfold Lit.text at hc
  rw [List.mem_append, List.mem_append, List.mem_append] at hc
  rcases hc with hc | hc | hc | hc
  · cases neg
    · simp at hc
    · simp at hc
      subst hc
      decide
  · exact digit_not (hip c hc)
  · cases fp with
    | none => simp at hc
    | some f =>
      dsimp only at hc
      rcases List.mem_cons.mp hc with rfl | hc
      · decide
      · exact digit_not (hfp c hc)
  · cases ex with
    | none => simp [exText] at hc
    | some e =>
      obtain ⟨u, sg, ds⟩ := e
      rw [exText] at hc
      rcases List.mem_cons.mp hc with rfl | hc
      · cases u <;> (simp only [if_true, Bool.false_eq_true, if_false]; decide)
      · rcases List.mem_append.mp hc with hc | hc
        · match sg with
          | some true => simp [signText] at hc; subst hc; decide
          | some false => simp [signText] at hc; subst hc; decide
          | none => simp [signText] at hc
        · exact digit_not ((hex _ rfl).2 c hc)

theorem lit_ne {l : Lit} (h : l.OK) : l.text ≠ [] := by
  obtain ⟨neg, ip, fp, ex⟩ := l
  obtain ⟨_, _, hne, _⟩ := h
  intro e
  unfold Lit.text at e
  rw [List.append_eq_nil_iff, List.append_eq_nil_iff, List.append_eq_nil_iff] at e
  rcases hne with h | h
  · exact h e.2.1
  · cases fp with
    | none => exact h rfl
    | some f => exact absurd e.2.2.1 (by simp)

theorem lit_head {l : Lit} (h : l.OK) : ∃ c t, l.text = c :: t ∧ isSpace c = false ∧ c ≠ '#' := by
  cases ht : l.text with
  | nil => exact absurd ht (lit_ne h)
  | cons c t =>
    have := lit_chars h c (by rw [ht]; simp)
    exact ⟨c, t, rfl, this.1, this.2.1⟩

theorem sep_plain {w s : Str} (h : Plain w) (hs : Sep s) : Sep (w ++ s) := by
  cases w with
  | nil => exact hs
  | cons c w => exact sep_cons (plain_blank h c (by simp))

theorem sep_nl (s : Str) : Sep ('\n' :: s) := sep_cons (by decide)

theorem readDec_blank {ws : Str} (h : Blank ws) (s : Str) : readDec (ws ++ s) = readDec s := by
  rw [ins_readDec (ws ++ s), dropWhile_blank h, ← ins_readDec]

/-- Reading the two numbers of a row leaves the rest of the line. -/
theorem reads_row {ws1 ws2 ws3 : Str} {x y : Lit} (h : (LineT.row ws1 x ws2 y ws3).OK) (pre rest : Str) (hp : Blank pre) :
    readDec (pre ++ ((LineT.row ws1 x ws2 y ws3).text ++ '\n' :: rest)) =
      some (x.val, ws2 ++ (y.text ++ (ws3 ++ '\n' :: rest))) ∧
    readDec (ws2 ++ (y.text ++ (ws3 ++ '\n' :: rest))) = some (y.val, ws3 ++ '\n' :: rest) := by
  obtain ⟨h1, hx, h2, hne, hy, h3⟩ := h
  constructor
  · rw [LineT.text, List.append_assoc, List.append_assoc, List.append_assoc, List.append_assoc,
      readDec_blank hp, readDec_blank (plain_blank h1)]
    exact reads_lit x hx _ (sep_ws (plain_blank h2) hne)
  · rw [readDec_blank (plain_blank h2)]
    exact reads_lit y hy _ (sep_plain h3 (sep_nl rest))

/-- An extraction fails at a hash sign. -/
theorem readDec_hash {ws : Str} (h : Blank ws) (s : Str) : readDec (ws ++ '#' :: s) = none := by
  rw [readDec_blank h]
  rfl

theorem afterLine_line {l : Str} (h : '\n' ∉ l) (rest : Str) : afterLine (l ++ '\n' :: rest) = rest := by
  unfold afterLine
  have : ∀ c ∈ l, (c != '\n') = true := by
    intro c hc
    simp only [bne_iff_ne, ne_eq]
    rintro rfl
    exact h hc
  rw [List.dropWhile_append_of_pos this, List.dropWhile_cons_of_neg (by simp)]
  rfl

theorem fileText_cons (l : LineT) (ls : List LineT) : fileText (l :: ls) = l.text ++ '\n' :: fileText ls := by
  unfold fileText
  rw [List.flatMap_cons, List.append_assoc]
  rfl

theorem fileText_append (a b : List LineT) : fileText (a ++ b) = fileText a ++ fileText b := List.flatMap_append ..

theorem length_fileText (ls : List LineT) : ls.length ≤ (fileText ls).length := by
  induction ls with
  | nil => simp
  | cons l ls ih =>
    rw [fileText_cons, List.length_cons, List.length_append, List.length_cons]
    omega

/-! ## `readtable` -/

theorem skip_plain {w : Str} (h : ∀ c ∈ w, c = ' ' ∨ c = '\t' ∨ c = '\n') (s : Str) :
    skipComments (w ++ s).length (w ++ s) = skipComments s.length s := by
  induction w with
  | nil => rfl
  | cons c w ih =>
    rw [List.cons_append, List.length_cons, skipComments, if_pos (h c (by simp))]
    exact ih fun d hd => h d (by simp [hd])

theorem skip_hash {l : Str} (h : '\n' ∉ l) (s : Str) :
    skipComments ('#' :: (l ++ '\n' :: s)).length ('#' :: (l ++ '\n' :: s)) = skipComments s.length s := by
  rw [List.length_cons, skipComments, if_neg (by decide), if_pos rfl, afterLine_line h]
  exact skip_fuel _ _ _ le_rfl (by rw [List.length_append, List.length_cons]; omega)

theorem plain3 {w : Str} (h : Plain w) : ∀ c ∈ w, c = ' ' ∨ c = '\t' ∨ c = '\n' := by
  intro c hc
  rcases h c hc with h | h
  · exact Or.inl h
  · exact Or.inr (Or.inl h)

theorem tableLoop_skip {a b : Str} (n : Nat) (h : skipComments a.length a = skipComments b.length b) :
    tableLoop n a = tableLoop n b := by
  cases n with
  | zero => rfl
  | succ n =>
    unfold tableLoop
    rw [h]

theorem tableLoop_file (ls : List LineT) (h : ∀ l ∈ ls, l.OK) (n : Nat) (hn : ls.length < n) (pre : Str)
    (hp : ∀ c ∈ pre, c = ' ' ∨ c = '\t' ∨ c = '\n') : tableLoop n (pre ++ fileText ls) = some (values ls) := by
  induction ls generalizing n pre with
  | nil =>
    rw [tableLoop_skip n (b := []) (by rw [skip_plain hp]; rfl)]
    cases n <;> rfl
  | cons l ls ih =>
    have hl := h l (by simp)
    rw [tableLoop_skip n (skip_plain hp _), fileText_cons]
    rw [List.length_cons] at hn
    have hrest : ∀ l ∈ ls, l.OK := fun l hl => h l (by simp [hl])
    cases l with
    | blank ws =>
      rw [LineT.text, tableLoop_skip n (skip_plain (plain3 hl) _)]
      exact ih hrest n (by omega) ['\n'] (by simp)
    | comment p t =>
      rw [LineT.text, List.append_assoc, tableLoop_skip n (skip_plain (plain3 hl.1) _), List.cons_append,
        tableLoop_skip n (skip_hash hl.2 _)]
      exact ih hrest n (by omega) [] (by simp)
    | row ws1 x ws2 y ws3 =>
      obtain ⟨n, rfl⟩ : ∃ m, n = m + 1 := ⟨n - 1, by omega⟩
      have hr := reads_row (pre := []) hl (rest := fileText ls) (by simp [Blank])
      have h1 := hl.1
      obtain ⟨c, t, hc, hsp, hhash⟩ := lit_head hl.2.1
      rw [List.nil_append] at hr
      have hskip : skipComments ((LineT.row ws1 x ws2 y ws3).text ++ '\n' :: fileText ls).length
          ((LineT.row ws1 x ws2 y ws3).text ++ '\n' :: fileText ls) =
          x.text ++ (ws2 ++ (y.text ++ (ws3 ++ '\n' :: fileText ls))) := by
        rw [LineT.text, List.append_assoc, List.append_assoc, List.append_assoc, List.append_assoc, skip_plain (plain3 h1), hc, List.cons_append,
          List.length_cons, skipComments, if_neg, if_neg hhash]
        rintro (rfl | rfl | rfl) <;> exact absurd hsp (by decide)
      have hread : readDec (x.text ++ (ws2 ++ (y.text ++ (ws3 ++ '\n' :: fileText ls)))) =
          some (x.val, ws2 ++ (y.text ++ (ws3 ++ '\n' :: fileText ls))) :=
        reads_lit x hl.2.1 _ (sep_ws (plain_blank hl.2.2.1) hl.2.2.2.1)
      unfold tableLoop
      rw [hskip, if_neg (by rw [hc]; simp), hread]
      dsimp only
      rw [hr.2]
      dsimp only
      have := ih hrest n (by omega) (ws3 ++ ['\n']) (by
        intro c hc
        rcases List.mem_append.mp hc with h | h
        · exact plain3 hl.2.2.2.2.2 c h
        · exact Or.inr (Or.inr (List.mem_singleton.mp h)))
      rw [List.append_assoc, List.singleton_append] at this
      rw [this]
      rfl

/-- **C88.** The library reads every table completely, with comments and blank lines anywhere. -/
theorem readTable_file (ls : List LineT) (h : ∀ l ∈ ls, l.OK) : readTable (fileText ls) = some (values ls) :=
  tableLoop_file ls h _ (by have := length_fileText ls; omega) [] (by simp)

/-! ## The reader of `kk` and `integ` -/

theorem kkLoop_comments (cs : List LineT) (h : ∀ l ∈ cs, l.OK ∧ l.isComment) (n : Nat) (rest : Str) :
    kkLoop (n + cs.length) (fileText cs ++ rest) = kkLoop n rest := by
  induction cs with
  | nil => rfl
  | cons l cs ih =>
    obtain ⟨hok, hc⟩ := h l (by simp)
    cases l with
    | row => exact absurd hc id
    | blank => exact absurd hc id
    | comment p t =>
      have hp : p = [] := hc
      subst hp
      rw [fileText_cons, LineT.text, List.nil_append, List.length_cons, ← Nat.add_assoc, kkLoop, List.append_assoc, List.cons_append,
        List.cons_append, if_pos (show ('#' :: (t ++ '\n' :: (fileText cs ++ rest))).head? = some '#' from rfl)]
      have : afterLine ('#' :: (t ++ '\n' :: (fileText cs ++ rest))) = fileText cs ++ rest :=
        afterLine_line (l := '#' :: t) (by
          rw [List.mem_cons]
          rintro (h | h)
          · exact absurd h (by decide)
          · exact hok.2 h) _
      rw [this]
      exact ih fun l hl => h l (by simp [hl])

theorem row_head {ws1 ws2 ws3 : Str} {x y : Lit} (h : (LineT.row ws1 x ws2 y ws3).OK) (rest : Str) :
    ((LineT.row ws1 x ws2 y ws3).text ++ rest).head? ≠ some '#' := by
  obtain ⟨c, t, hc, _, hhash⟩ := lit_head h.2.1
  rw [LineT.text]
  cases ws1 with
  | nil =>
    rw [hc]
    simpa using hhash
  | cons d w =>
    rcases h.1 d (by simp) with rfl | rfl <;> simp

theorem blank_head {pre : Str} (hp : Blank pre) (hne : pre ≠ []) (s : Str) : (pre ++ s).head? ≠ some '#' := by
  cases pre with
  | nil => exact absurd rfl hne
  | cons c w =>
    have := hp c (by simp)
    simp only [List.cons_append, List.head?_cons, ne_eq, Option.some.injEq]
    rintro rfl
    exact absurd this (by decide)

/-- After rows of data only white space is in front of what follows, and there is some. -/
theorem kkLoop_rows (rs : List LineT) (h : ∀ l ∈ rs, l.OK ∧ l.noComment) (n : Nat) (pre rest : Str) (hp : Blank pre) :
    ∃ pre', Blank pre' ∧ (pre ≠ [] ∨ rs ≠ [] → pre' ≠ []) ∧
      kkLoop (n + (values rs).length) (pre ++ (fileText rs ++ rest)) = values rs ++ kkLoop n (pre' ++ rest) := by
  induction rs generalizing pre with
  | nil => exact ⟨pre, hp, fun h => h.elim id fun h => absurd rfl h, rfl⟩
  | cons l rs ih =>
    obtain ⟨hok, hc⟩ := h l (by simp)
    have hrest : ∀ l ∈ rs, l.OK ∧ l.noComment := fun l hl => h l (by simp [hl])
    cases l with
    | comment => exact absurd hc id
    | blank ws =>
      have hb : Blank (pre ++ (ws ++ ['\n'])) := by
        intro c hc
        rcases List.mem_append.mp hc with h | h
        · exact hp c h
        · rcases List.mem_append.mp h with h | h
          · exact plain_blank hok c h
          · rw [List.mem_singleton.mp h]; decide
      obtain ⟨pre', h1, h2, h3⟩ := ih hrest (pre ++ (ws ++ ['\n'])) hb
      refine ⟨pre', h1, fun _ => h2 (Or.inl (by simp)), ?_⟩
      rw [fileText_cons, LineT.text]
      have e : pre ++ (ws ++ '\n' :: fileText rs ++ rest) = pre ++ (ws ++ ['\n']) ++ (fileText rs ++ rest) := by simp
      rw [e]
      exact h3
    | row ws1 x ws2 y ws3 =>
      have hb : Blank (ws3 ++ ['\n']) := by
        intro c hc
        rcases List.mem_append.mp hc with h | h
        · exact plain_blank hok.2.2.2.2.2 c h
        · rw [List.mem_singleton.mp h]; decide
      obtain ⟨pre', h1, h2, h3⟩ := ih hrest (ws3 ++ ['\n']) hb
      refine ⟨pre', h1, fun _ => h2 (Or.inl (by simp)), ?_⟩
      have hr := reads_row hok pre (fileText rs ++ rest) hp
      have hv : values (LineT.row ws1 x ws2 y ws3 :: rs) = (x.val, y.val) :: values rs := rfl
      rw [hv, List.length_cons, ← Nat.add_assoc, kkLoop, fileText_cons, List.append_assoc, List.cons_append, if_neg, hr.1]
      · dsimp only
        rw [hr.2]
        dsimp only
        rw [List.append_assoc, List.singleton_append] at h3
        rw [h3]
        rfl
      · by_cases hpre : pre = []
        · subst hpre
          exact row_head hok _
        · exact blank_head hp hpre _

theorem length_values (ls : List LineT) : (values ls).length ≤ ls.length := List.length_filterMap_le _ _

theorem kkLoop_end (n : Nat) {pre : Str} (hp : Blank pre) : kkLoop n (pre ++ []) = [] := by
  cases n with
  | zero => rfl
  | succ n =>
    have h : readDec (pre ++ []) = none := by rw [readDec_blank hp]; rfl
    rw [kkLoop, h]
    split
    · rename_i hh
      cases pre with
      | nil => simp at hh
      | cons c w => exact absurd hh (blank_head hp (by simp) _)
    · rfl

/-- **C88, partial.** `kk` and `integ` read every table with comments at its beginning only. -/
theorem kkRead_file_partial (cs rs : List LineT) (hc : ∀ l ∈ cs, l.OK ∧ l.isComment) (hr : ∀ l ∈ rs, l.OK ∧ l.noComment) :
    kkRead (fileText (cs ++ rs)) = values rs := by
  unfold kkRead
  have hlen := length_fileText (cs ++ rs)
  have hval := length_values rs
  rw [List.length_append] at hlen
  obtain ⟨k, hk⟩ : ∃ k, (fileText (cs ++ rs)).length + 1 = k + (values rs).length + cs.length :=
    ⟨(fileText (cs ++ rs)).length + 1 - (values rs).length - cs.length, by omega⟩
  rw [hk, fileText_append, kkLoop_comments cs hc]
  obtain ⟨pre', h1, _, h3⟩ := kkLoop_rows rs hr k [] [] (by simp [Blank])
  rw [List.nil_append, List.append_nil] at h3
  rw [h3, kkLoop_end k h1, List.append_nil]

/-- **C88, violated by `kk` and `integ`.** A comment after the first row of data ends the reading without any
message: whatever follows it is lost. -/
theorem kkRead_comment_loses_data (cs rs : List LineT) (hc : ∀ l ∈ cs, l.OK ∧ l.isComment) (hr : ∀ l ∈ rs, l.OK ∧ l.noComment)
    (hne : rs ≠ []) (rest : Str) : kkRead (fileText (cs ++ rs) ++ '#' :: rest) = values rs := by
  unfold kkRead
  have hlen := length_fileText (cs ++ rs)
  have hval := length_values rs
  rw [List.length_append] at hlen
  obtain ⟨k, hk⟩ : ∃ k, (fileText (cs ++ rs) ++ '#' :: rest).length + 1 = k + 1 + (values rs).length + cs.length :=
    ⟨(fileText (cs ++ rs) ++ '#' :: rest).length - (values rs).length - cs.length, by
      rw [List.length_append, List.length_cons]; omega⟩
  rw [hk, fileText_append, List.append_assoc, kkLoop_comments cs hc]
  obtain ⟨pre', h1, h2, h3⟩ := kkLoop_rows rs hr (k + 1) [] ('#' :: rest) (by simp [Blank])
  rw [List.nil_append] at h3
  rw [h3, kkLoop, if_neg (blank_head h1 (h2 (Or.inr hne)) _), readDec_hash h1]
  exact List.append_nil _

/-! ## `load_pairs` -/

theorem fields_blank {ws : Str} (h : Blank ws) (s : Str) : fieldsAux [] (ws ++ s) = fieldsAux [] s := by
  induction ws with
  | nil => rfl
  | cons c w ih =>
    rw [List.cons_append, fieldsAux, if_pos (h c (by simp)), if_pos rfl]
    exact ih fun d hd => h d (by simp [hd])

theorem fields_word {w : Str} (h : ∀ c ∈ w, isSpace c = false) (cur s : Str) : fieldsAux cur (w ++ s) = fieldsAux (w.reverse ++ cur) s := by
  induction w generalizing cur with
  | nil => rfl
  | cons c w ih =>
    rw [List.cons_append, fieldsAux, if_neg (by rw [h c (by simp)]; simp), ih (fun d hd => h d (by simp [hd]))]
    simp

theorem fields_end {cur ws : Str} (hc : cur ≠ []) (h : Blank ws) : fieldsAux cur ws = [cur.reverse] := by
  cases ws with
  | nil => rw [fieldsAux, if_neg hc]
  | cons c w =>
    rw [fieldsAux, if_pos (h c (by simp)), if_neg hc]
    have := fields_blank (ws := w) (fun d hd => h d (by simp [hd])) []
    rw [List.append_nil] at this
    rw [this]
    rfl

theorem fields_row {ws1 ws2 ws3 : Str} {x y : Lit} (h : (LineT.row ws1 x ws2 y ws3).OK) :
    fields (LineT.row ws1 x ws2 y ws3).text = [x.text, y.text] := by
  obtain ⟨h1, hx, h2, hne, hy, h3⟩ := h
  rw [fields, LineT.text, fields_blank (plain_blank h1), fields_word (fun c hc => (lit_chars hx c hc).1), List.append_nil]
  cases ws2 with
  | nil => exact absurd rfl hne
  | cons c w =>
    rw [List.cons_append, fieldsAux, if_pos (plain_blank h2 c (by simp)), if_neg (by simpa using lit_ne hx), List.reverse_reverse,
      fields_blank (ws := w) (fun d hd => plain_blank h2 d (by simp [hd])), fields_word (fun c hc => (lit_chars hy c hc).1), List.append_nil,
      fields_end (by simpa using lit_ne hy) (plain_blank h3), List.reverse_reverse]

/-- Where the stream extraction succeeds, `atof` gives the same number. -/
theorem atof_readDec {s : Str} {d : Dec} {r : Str} (h : readDec s = some (d, r)) : atof s = d := by
  unfold readDec at h
  unfold atof
  dsimp only at h ⊢
  split at h
  · cases h
  · rename_i hne
    rw [if_neg hne]
    cases he : readExp (readFrac ((readSign (s.dropWhile isSpace)).2.dropWhile isDigit)).2 with
    | none => rw [he] at h; cases h
    | some p =>
      obtain ⟨e, r'⟩ := p
      rw [he] at h
      simp only [Option.some.injEq, Prod.mk.injEq] at h
      have hx : exponent (readFrac ((readSign (s.dropWhile isSpace)).2.dropWhile isDigit)).2 = e := by
        revert he
        generalize (readFrac ((readSign (s.dropWhile isSpace)).2.dropWhile isDigit)).2 = u
        intro he
        unfold readExp at he
        unfold exponent
        cases u with
        | nil =>
          simp only [Option.some.injEq, Prod.mk.injEq] at he
          exact he.1
        | cons c u =>
          dsimp only at he ⊢
          by_cases hc : c = 'e' ∨ c = 'E'
          · rw [if_pos hc] at he ⊢
            by_cases hd : (readSign u).2.takeWhile isDigit = []
            · rw [if_pos hd] at he; cases he
            · rw [if_neg hd] at he ⊢
              simp only [Option.some.injEq, Prod.mk.injEq] at he
              exact he.1
          · rw [if_neg hc] at he ⊢
            simp only [Option.some.injEq, Prod.mk.injEq] at he
            exact he.1
      rw [hx]
      exact h.1

theorem atof_lit {l : Lit} (h : l.OK) : atof l.text = l.val := by
  have := reads_lit l h [] sep_nil
  rw [List.append_nil] at this
  exact atof_readDec this

theorem line_noNl {l : LineT} (h : l.OK) : '\n' ∉ l.text := by
  have hp : ∀ ws, Plain ws → '\n' ∉ ws := fun ws hw hm => by
    rcases hw _ hm with h | h <;> exact absurd h (by decide)
  have hl : ∀ x : Lit, x.OK → '\n' ∉ x.text := fun x hx hm => (lit_chars hx _ hm).2.2 rfl
  cases l with
  | blank ws => exact hp ws h
  | comment p t =>
    rw [LineT.text, List.mem_append, List.mem_cons]
    rintro (hm | hm | hm)
    · exact hp p h.1 hm
    · exact absurd hm (by decide)
    · exact h.2 hm
  | row ws1 x ws2 y ws3 =>
    obtain ⟨h1, hx, h2, hne, hy, h3⟩ := h
    rw [LineT.text, List.mem_append, List.mem_append, List.mem_append, List.mem_append]
    rintro (hm | hm | hm | hm | hm)
    exacts [hp _ h1 hm, hl _ hx hm, hp _ h2 hm, hl _ hy hm, hp _ h3 hm]

theorem split_file (ls : List LineT) (h : ∀ l ∈ ls, l.OK) (rest : Str) :
    split '\n' (fileText ls ++ rest) = ls.map LineT.text ++ split '\n' rest := by
  induction ls with
  | nil => rfl
  | cons l ls ih =>
    rw [fileText_cons, split, List.append_assoc, List.cons_append, splitAux_nodelim _ _ _ _ (line_noNl (h l (by simp))), List.nil_append]
    have := ih fun l hl => h l (by simp [hl])
    rw [split] at this
    rw [this]
    rfl

theorem row_text_ne {ws1 ws2 ws3 : Str} {x y : Lit} (h : (LineT.row ws1 x ws2 y ws3).OK) : (LineT.row ws1 x ws2 y ws3).text ≠ [] := by
  intro e
  rw [LineT.text, List.append_eq_nil_iff, List.append_eq_nil_iff] at e
  exact lit_ne h.2.1 e.2.1

theorem dataLines_file (ls : List LineT) (h : ∀ l ∈ ls, l.OK ∧ l.strict) : (dataLines (fileText ls)).mapM row = some (values ls) := by
  have hs := split_file ls (fun l hl => (h l hl).1) []
  rw [List.append_nil] at hs
  rw [dataLines, hs, show split '\n' [] = [] from rfl, List.append_nil]
  clear hs
  induction ls with
  | nil => rfl
  | cons l ls ih =>
    have hrest := ih fun l hl => h l (by simp [hl])
    obtain ⟨hok, hst⟩ := h l (by simp)
    rw [List.map_cons]
    cases l with
    | blank ws =>
      have hw : ws = [] := hst
      subst hw
      rw [List.filter_cons_of_neg (by simp [LineT.text])]
      exact hrest
    | comment p t =>
      have hp : p = [] := hst
      subst hp
      rw [List.filter_cons_of_neg (by simp [LineT.text])]
      exact hrest
    | row ws1 x ws2 y ws3 =>
      have hh := row_head hok []
      rw [List.append_nil] at hh
      rw [List.filter_cons_of_pos (by simpa using ⟨row_text_ne hok, hh⟩), List.mapM_cons, hrest]
      have hrow : row (LineT.row ws1 x ws2 y ws3).text = some (x.val, y.val) := by
        rw [row, fields_row hok]
        dsimp only
        rw [atof_lit hok.2.1, atof_lit hok.2.2.2.2.1]
      rw [hrow]
      rfl

/-- **C88, partial.** The readers of `adapt` and `nrgchain` read every table in which comments begin in the first column
and blank lines are empty. -/
theorem loadPairs_file_partial (ls : List LineT) (h : ∀ l ∈ ls, l.OK ∧ l.strict) (hne : values ls ≠ []) :
    loadPairs (fileText ls) = some (values ls) := by
  unfold loadPairs
  rw [dataLines_file ls h]
  cases hv : values ls with
  | nil => exact absurd hv hne
  | cons p l => rfl

/-- **C88.** A line of white space is refused by `load_pairs`, wherever it is. -/
theorem loadPairs_blank_refused (a b : List LineT) (ha : ∀ l ∈ a, l.OK) (hb : ∀ l ∈ b, l.OK) (ws : Str) (hw : Plain ws) (hne : ws ≠ []) :
    loadPairs (fileText (a ++ .blank ws :: b)) = none := by
  have hs := split_file (a ++ .blank ws :: b) (by
    intro l hl
    rcases List.mem_append.mp hl with h | h
    · exact ha l h
    · rcases List.mem_cons.mp h with rfl | h
      · exact hw
      · exact hb l h) []
  rw [List.append_nil, show split '\n' [] = [] from rfl, List.append_nil] at hs
  have hrow : row ws = none := by
    have := fields_blank (plain_blank hw) []
    rw [List.append_nil] at this
    rw [row, fields, this]
    rfl
  have hmem : ws ∈ dataLines (fileText (a ++ .blank ws :: b)) := by
    rw [dataLines, hs, List.mem_filter]
    refine ⟨by simp [LineT.text], ?_⟩
    have := blank_head (plain_blank hw) hne []
    rw [List.append_nil] at this
    simpa using ⟨hne, this⟩
  have hnone : ∀ l : List Str, ws ∈ l → l.mapM row = none := by
    intro l hl
    induction l with
    | nil => simp at hl
    | cons c l ih =>
      rw [List.mapM_cons]
      rcases List.mem_cons.mp hl with rfl | hl
      · rw [hrow]; rfl
      · rw [ih hl]
        cases row c <;> rfl
  rw [loadPairs, hnone _ hmem]

/-- **C88, violated by `adapt` and `nrgchain`.** An indented comment is taken for a row, and words that are no numbers are read as zero. -/
theorem loadPairs_takes_text :
    loadPairs " # 5 7\n1 2\n".toList = some [(⟨0, 0⟩, ⟨5, 0⟩), (⟨1, 0⟩, ⟨2, 0⟩)] ∧
    loadPairs "energy Delta\n1 2\n".toList = some [(⟨0, 0⟩, ⟨0, 0⟩), (⟨1, 0⟩, ⟨2, 0⟩)] := by
  decide +kernel

/-- **C88, violated by the library.** A table with the line ends of another operating system is refused, although the other
readers accept it. -/
theorem readTable_refuses_crlf :
    readTable "1 2\r\n".toList = none ∧ kkRead "1 2\r\n".toList = [(⟨1, 0⟩, ⟨2, 0⟩)] ∧
    loadPairs "1 2\r\n".toList = some [(⟨1, 0⟩, ⟨2, 0⟩)] := by
  decide +kernel

/-- **C88.** A table written by one of the tools is read alike by all of them. -/
theorem written_read (t : List (Lit × Lit)) (h : ∀ p ∈ t, p.1.OK ∧ p.2.OK) (hne : t ≠ []) :
    readTable (fileText (t.map written)) = some (t.map fun p => (p.1.val, p.2.val)) ∧
    kkRead (fileText (t.map written)) = t.map (fun p => (p.1.val, p.2.val)) ∧
    loadPairs (fileText (t.map written)) = some (t.map fun p => (p.1.val, p.2.val)) := by
  have hv : values (t.map written) = t.map fun p => (p.1.val, p.2.val) := by
    unfold values
    rw [List.filterMap_map]
    exact congrFun (List.filterMap_eq_map (f := fun p : Lit × Lit => (p.1.val, p.2.val))) t
  have hok : ∀ l ∈ t.map written, l.OK := by
    intro l hl
    obtain ⟨p, hp, rfl⟩ := List.mem_map.mp hl
    exact ⟨by simp [Plain], (h p hp).1, by simp [Plain], by simp, (h p hp).2, by simp [Plain]⟩
  refine ⟨by rw [readTable_file _ hok, hv], ?_, ?_⟩
  · have := kkRead_file_partial [] (t.map written) (by simp) (fun l hl => ⟨hok l hl, by
      obtain ⟨p, _, rfl⟩ := List.mem_map.mp hl
      trivial⟩)
    rw [List.nil_append, hv] at this
    exact this
  · rw [loadPairs_file_partial _ (fun l hl => ⟨hok l hl, by
      obtain ⟨p, _, rfl⟩ := List.mem_map.mp hl
      trivial⟩), hv]
    rw [hv]
    simpa using hne

/-- Non-vacuity: numbers and lines of all kinds. -/
example : ∃ x y : Lit, x.OK ∧ y.OK ∧ (LineT.row [' '] x ['\t'] y []).OK ∧ (LineT.comment [] "omega A".toList).OK ∧
    (LineT.comment [' '] ['x']).OK ∧ (LineT.blank [' ']).OK ∧
    fileText [.comment [] "omega A".toList, .row [' '] x ['\t'] y [], .blank []] = "#omega A\n -1.5\t2E-03\n\n".toList ∧
    x.val = ⟨-15, -1⟩ ∧ y.val = ⟨2, -3⟩ := by
  refine ⟨⟨true, ['1'], some ['5'], none⟩, ⟨false, ['2'], none, some ⟨true, some true, ['0', '3']⟩⟩, ?_, ?_, ⟨?_, ?_, ?_, ?_, ?_, ?_⟩, ⟨?_, ?_⟩, ⟨?_, ?_⟩, ?_, ?_, ?_, ?_⟩
  all_goals first
    | (refine ⟨?_, ?_, ?_, ?_⟩ <;> simp [Lit.frac, ExOK] <;> decide)
    | (simp [Plain]; done)
    | (show Plain _; simp [Plain]; done)
    | decide +kernel

/-! ## `load_abs_pairs` -/

theorem absLoop_spec (pos : Bool) (rows l : List (ℚ × ℚ)) :
    absLoop pos rows = some l ↔ (∀ p ∈ rows, accept pos p.1 = true → 0 ≤ p.2) ∧
      l = (rows.filter fun p => accept pos p.1).map fun p => (|p.1|, p.2) := by
  induction rows generalizing l with
  | nil =>
    simp only [absLoop, Option.some.injEq]
    exact ⟨fun h => ⟨by simp, h.symm⟩, fun h => h.2.symm⟩
  | cons p rows ih =>
    obtain ⟨x, y⟩ := p
    rw [absLoop]
    by_cases ha : accept pos x = true
    · rw [if_pos ha, List.filter_cons_of_pos (by simpa using ha), List.map_cons]
      by_cases hy : y < 0
      · rw [if_pos hy]
        constructor
        · intro h; cases h
        · rintro ⟨h, _⟩
          exact absurd (h (x, y) (by simp) ha) (not_le.mpr hy)
      · rw [if_neg hy, Option.map_eq_some_iff]
        constructor
        · rintro ⟨l', hl', rfl⟩
          obtain ⟨h1, h2⟩ := (ih l').mp hl'
          refine ⟨fun q hq => ?_, by rw [h2]⟩
          rcases List.mem_cons.mp hq with rfl | hq
          · exact fun _ => not_lt.mp hy
          · exact h1 q hq
        · rintro ⟨h1, h2⟩
          exact ⟨_, (ih _).mpr ⟨fun q hq => h1 q (by simp [hq]), rfl⟩, h2.symm⟩
    · rw [if_neg ha, List.filter_cons_of_neg (by simpa using ha), ih]
      constructor
      · rintro ⟨h1, h2⟩
        refine ⟨fun q hq => ?_, h2⟩
        rcases List.mem_cons.mp hq with rfl | hq
        · exact fun h => absurd h ha
        · exact h1 q hq
      · rintro ⟨h1, h2⟩
        exact ⟨fun q hq => h1 q (by simp [hq]), h2⟩

/-- **C88.** The hybridisation function of one sign: the rows with energies of this sign, with the magnitudes of the energies in increasing
order; it is refused exactly if one of these values is negative or there are none. -/
theorem loadAbs_spec (pos : Bool) (rows : List (ℚ × ℚ)) :
    (∀ l, loadAbs pos rows = some l →
      l.Perm ((rows.filter fun p => accept pos p.1).map fun p => (|p.1|, p.2)) ∧ (l.map Prod.fst).Pairwise (· ≤ ·) ∧
      ∀ p ∈ l, 0 < p.1 ∧ 0 ≤ p.2) ∧
    (loadAbs pos rows = none ↔ (∃ p ∈ rows, accept pos p.1 = true ∧ p.2 < 0) ∨ ∀ p ∈ rows, accept pos p.1 = false) := by
  haveI : Std.Total pairLE := ⟨fun a b => by
    unfold pairLE
    rcases lt_trichotomy a.1 b.1 with h | h | h
    · exact Or.inl (Or.inl h)
    · rcases le_total a.2 b.2 with h' | h'
      · exact Or.inl (Or.inr ⟨h, h'⟩)
      · exact Or.inr (Or.inr ⟨h.symm, h'⟩)
    · exact Or.inr (Or.inl h)⟩
  haveI : IsTrans (ℚ × ℚ) pairLE := ⟨fun a b c h1 h2 => by
    unfold pairLE at *
    rcases h1 with h1 | ⟨h1, h1'⟩ <;> rcases h2 with h2 | ⟨h2, h2'⟩
    · exact Or.inl (h1.trans h2)
    · exact Or.inl (h2 ▸ h1)
    · exact Or.inl (h1 ▸ h2)
    · exact Or.inr ⟨h1.trans h2, h1'.trans h2'⟩⟩
  have hne : ∀ x, accept pos x = true → 0 < |x| := by
    intro x hx
    rw [abs_pos]
    rintro rfl
    cases pos <;> simp [accept] at hx
  cases ha : absLoop pos rows with
  | none =>
    have hbad : ∃ p ∈ rows, accept pos p.1 = true ∧ p.2 < 0 := by
      by_contra hc
      have := (absLoop_spec pos rows _).mpr ⟨fun p hp h => not_lt.mp fun hlt => hc ⟨p, hp, h, hlt⟩, rfl⟩
      rw [ha] at this
      cases this
    have : loadAbs pos rows = none := by rw [loadAbs, ha]
    rw [this]
    exact ⟨fun l h => (Option.some_ne_none l h.symm).elim, fun _ => Or.inl hbad, fun _ => rfl⟩
  | some l0 =>
    obtain ⟨h1, h2⟩ := (absLoop_spec pos rows l0).mp ha
    have hno : ¬ ∃ p ∈ rows, accept pos p.1 = true ∧ p.2 < 0 := by
      rintro ⟨p, hp, h, hlt⟩
      exact absurd (h1 p hp h) (not_le.mpr hlt)
    cases l0 with
    | nil =>
      have : loadAbs pos rows = none := by rw [loadAbs, ha]
      rw [this]
      refine ⟨fun l h => (Option.some_ne_none l h.symm).elim, fun _ => Or.inr ?_, fun _ => rfl⟩
      have h3 : (rows.filter fun p => accept pos p.1) = [] := List.map_eq_nil_iff.mp h2.symm
      rw [List.filter_eq_nil_iff] at h3
      intro p hp
      simpa using h3 p hp
    | cons p l0 =>
      have : loadAbs pos rows = some ((p :: l0).insertionSort pairLE) := by rw [loadAbs, ha]
      rw [this]
      refine ⟨?_, ?_⟩
      · intro l h
        rw [Option.some.injEq] at h
        have hperm : l.Perm (p :: l0) := h ▸ List.perm_insertionSort _ _
        refine ⟨h2 ▸ hperm, ?_, ?_⟩
        · rw [← h, List.pairwise_map]
          refine (List.pairwise_insertionSort pairLE (p :: l0)).imp ?_
          intro a b hab
          rcases hab with hab | hab
          · exact hab.le
          · exact hab.1.le
        · intro q hq
          rw [hperm.mem_iff, h2, List.mem_map] at hq
          obtain ⟨r, hr, rfl⟩ := hq
          obtain ⟨hr1, hr2⟩ := List.mem_filter.mp hr
          exact ⟨hne _ (by simpa using hr2), h1 r hr1 (by simpa using hr2)⟩
      · constructor
        · intro h; cases h
        · rintro (h | h)
          · exact absurd h hno
          · exfalso
            have : (rows.filter fun p => accept pos p.1) = [] := by
              rw [List.filter_eq_nil_iff]
              intro q hq
              simp [h q hq]
            rw [this] at h2
            cases h2

example : loadAbs true [(-1, -3), (2, 1), (0, 4), (1, 5)] = some [(1, 5), (2, 1)] := by decide +kernel

end Verif.Table
