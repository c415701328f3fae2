import Verif.Mx.Spec
import Verif.DataFile.Lemmas
import Verif.Table.Props
import Verif.NrgChain.Input
/-! # Lemmas on matrix files -/

namespace Verif.Mx
open Verif.Text
open Verif.DataFile
open Verif.Table (fieldsAux fields_blank fields_word fields_end lit_chars lit_ne)

variable {K : Type}

theorem inLine_blank {ws : Str} (h : InLine ws) : Blank ws := fun c hc => (h c hc).1

theorem blank_append {a b : Str} (ha : Blank a) (hb : Blank b) : Blank (a ++ b) := by
  intro c hc
  rcases List.mem_append.mp hc with h | h
  exacts [ha c h, hb c h]

theorem blank_nil : Blank [] := by simp [Blank]

theorem blank_nl : Blank ['\n'] := by simp [Blank]; decide

theorem readN_step {α : Type} {f : Rd α} {s r : Str} {a : α} (h : f s = some (a, r)) (n : Nat) :
    readN f (n + 1) s = match readN f n r with | none => none | some (l, r') => some (a :: l, r') := by
  rw [readN]; dsimp only; rw [h]; rfl

theorem readN_fail {α : Type} {f : Rd α} {s : Str} (h : f s = none) (n : Nat) : readN f (n + 1) s = none := by
  rw [readN]; dsimp only; rw [h]

/-- Reading one number. -/
theorem readOne_lit (F : Fmt K) {ws : Str} (hw : Blank ws) {l : Lit} (hl : l.OK) {x : K} (hx : F.num l.val = some x) (rest : Str)
    (hr : Sep rest) : readOne F (ws ++ (l.text ++ rest)) = some (x, rest) := by
  unfold readOne
  rw [Verif.Table.readDec_blank hw, reads_lit l hl rest hr]
  simp [hx]

theorem readOne_lit_none (F : Fmt K) {ws : Str} (hw : Blank ws) {l : Lit} (hl : l.OK) (hx : F.num l.val = none) (rest : Str)
    (hr : Sep rest) : readOne F (ws ++ (l.text ++ rest)) = none := by
  unfold readOne
  rw [Verif.Table.readDec_blank hw, reads_lit l hl rest hr]
  simp [hx]

theorem sep_toks {l : List (Tok Lit)} (hl : ∀ t ∈ l, TokOK t) {rest : Str} (hr : Sep rest) :
    Sep (l.flatMap numText ++ rest) := by
  cases l with
  | nil => simpa using hr
  | cons t l =>
    have h := hl t (by simp)
    rw [List.flatMap_cons, numText, List.append_assoc, List.append_assoc]
    exact sep_ws (inLine_blank h.2.1) h.1

/-- Reading a row of numbers. -/
theorem readN_toks (F : Fmt K) (l : List (Tok Lit)) (hl : ∀ t ∈ l, TokOK t) (rest : Str) (hr : Sep rest) (m : List K)
    (hm : l.mapM (fun t => F.num t.v.val) = some m) : readN (readOne F) l.length (l.flatMap numText ++ rest) = some (m, rest) := by
  induction l generalizing m with
  | nil =>
    have : m = [] := by simpa [eq_comm] using hm
    subst this
    rfl
  | cons t l ih =>
    have h := hl t (by simp)
    rw [List.mapM_cons] at hm
    cases hx : F.num t.v.val with
    | none => simp [hx] at hm
    | some x =>
      cases hy : l.mapM (fun t => F.num t.v.val) with
      | none => simp [hx, hy] at hm
      | some m' =>
        have e : m = x :: m' := by simpa [hx, hy, eq_comm] using hm
        subst e
        have hl' : ∀ t ∈ l, TokOK t := fun t ht => hl t (by simp [ht])
        rw [List.length_cons, List.flatMap_cons, numText, List.append_assoc, List.append_assoc,
          readN_step (readOne_lit F (inLine_blank h.2.1) h.2.2 hx _ (sep_toks hl' hr)), ih hl' m' hy]

theorem readN_toks_none (F : Fmt K) (l : List (Tok Lit)) (hl : ∀ t ∈ l, TokOK t) (rest : Str) (hr : Sep rest)
    (hm : l.mapM (fun t => F.num t.v.val) = none) : readN (readOne F) l.length (l.flatMap numText ++ rest) = none := by
  induction l with
  | nil => simp at hm
  | cons t l ih =>
    have h := hl t (by simp)
    have hl' : ∀ t ∈ l, TokOK t := fun t ht => hl t (by simp [ht])
    rw [List.length_cons, List.flatMap_cons, numText, List.append_assoc, List.append_assoc]
    rw [List.mapM_cons] at hm
    cases hx : F.num t.v.val with
    | none => rw [readN_fail (readOne_lit_none F (inLine_blank h.2.1) h.2.2 hx _ (sep_toks hl' hr))]
    | some x =>
      rw [readN_step (readOne_lit F (inLine_blank h.2.1) h.2.2 hx _ (sep_toks hl' hr)), ih hl' (by
        cases hz : l.mapM (fun t => F.num t.v.val) with
        | none => rfl
        | some z => rw [hx, hz] at hm; simp at hm)]

/-- The first number of a row may have no white space in front. -/
theorem readN_row (F : Fmt K) {pre : Str} (hp : Blank pre) {x : Tok Lit} {l : List (Tok Lit)} {trail : Str}
    (h : (Line.row x l trail).OK) (rest : Str) (hr : Sep rest) (m : List K)
    (hm : (x :: l).mapM (fun t => F.num t.v.val) = some m) :
    readN (readOne F) (l.length + 1) (pre ++ ((Line.row x l trail).text ++ rest)) = some (m, trail ++ rest) := by
  obtain ⟨h1, h2, h3, h4⟩ := h
  rw [List.mapM_cons] at hm
  have hs : Sep (trail ++ rest) := sep_append (fun _ => sep_blank (inLine_blank h4)) hr
  cases hx : F.num x.v.val with
  | none => simp [hx] at hm
  | some y =>
    cases hy : l.mapM (fun t => F.num t.v.val) with
    | none => simp [hx, hy] at hm
    | some m' =>
      have e : m = y :: m' := by simpa [hx, hy, eq_comm] using hm
      subst e
      have e2 : pre ++ ((Line.row x l trail).text ++ rest) = (pre ++ x.ws) ++ (x.v.text ++ (l.flatMap numText ++ (trail ++ rest))) := by
        simp [Line.text, numText]
      rw [e2, readN_step (readOne_lit F (blank_append hp (inLine_blank h1)) h2 hx _ (sep_toks h3 hs)), readN_toks F l h3 _ hs m' hy]

theorem readN_row_none (F : Fmt K) {pre : Str} (hp : Blank pre) {x : Tok Lit} {l : List (Tok Lit)} {trail : Str}
    (h : (Line.row x l trail).OK) (rest : Str) (hr : Sep rest)
    (hm : (x :: l).mapM (fun t => F.num t.v.val) = none) :
    readN (readOne F) (l.length + 1) (pre ++ ((Line.row x l trail).text ++ rest)) = none := by
  obtain ⟨h1, h2, h3, h4⟩ := h
  rw [List.mapM_cons] at hm
  have hs : Sep (trail ++ rest) := sep_append (fun _ => sep_blank (inLine_blank h4)) hr
  have e2 : pre ++ ((Line.row x l trail).text ++ rest) = (pre ++ x.ws) ++ (x.v.text ++ (l.flatMap numText ++ (trail ++ rest))) := by
    simp [Line.text, numText]
  cases hx : F.num x.v.val with
  | none => rw [e2, readN_fail (readOne_lit_none F (blank_append hp (inLine_blank h1)) h2 hx _ (sep_toks h3 hs))]
  | some y =>
    rw [e2, readN_step (readOne_lit F (blank_append hp (inLine_blank h1)) h2 hx _ (sep_toks h3 hs)), readN_toks_none F l h3 _ hs (by
        cases hz : l.mapM (fun t => F.num t.v.val) with
        | none => rfl
        | some z => rw [hx, hz] at hm; simp at hm)]

/-! ## Lines -/

theorem lit_noNl {l : Lit} (h : l.OK) : '\n' ∉ l.text := fun hm => (lit_chars h _ hm).2.2 rfl

theorem inLine_noNl {ws : Str} (h : InLine ws) : '\n' ∉ ws := fun hm => (h _ hm).2 rfl

theorem num_noNl {t : Tok Lit} (h1 : InLine t.ws) (h2 : t.v.OK) : '\n' ∉ numText t := by
  rw [numText, List.mem_append]
  rintro (h | h)
  exacts [inLine_noNl h1 h, lit_noNl h2 h]

theorem line_noNl {l : Line} (h : l.OK) : '\n' ∉ l.text := by
  cases l with
  | other s => exact h.2
  | row x l trail =>
    obtain ⟨h1, h2, h3, h4⟩ := h
    rw [Line.text, List.mem_append, List.mem_append, List.mem_flatMap]
    rintro (h | ⟨t, ht, h⟩ | h)
    · exact num_noNl h1 h2 h
    · exact num_noNl (h3 t ht).2.1 (h3 t ht).2.2 h
    · exact inLine_noNl h4 h

theorem splitAux_tail (ls : List Line) (h : ∀ l ∈ ls, l.OK) (s : Str) (hs : '\n' ∉ s) (cur : Str) :
    (splitAux '\n' cur (s ++ ls.flatMap fun l => '\n' :: l.text)).filter (fun l => !blankOrComment l) =
      ((cur ++ s) :: ls.map Line.text).filter fun l => !blankOrComment l := by
  induction ls generalizing s cur with
  | nil =>
    rw [List.flatMap_nil, List.append_nil, List.map_nil]
    induction s generalizing cur with
    | nil =>
      rw [List.append_nil, splitAux]
      by_cases hc : cur = []
      · subst hc; rfl
      · rw [if_neg hc]
    | cons c s ih =>
      rw [splitAux, if_neg (fun e => hs (by simp [e])), ih (fun hm => hs (by simp [hm]))]
      simp
  | cons l ls ih =>
    rw [List.flatMap_cons, List.cons_append, splitAux_nodelim _ _ _ _ hs, List.map_cons, List.filter_cons, List.filter_cons]
    rw [ih (fun l hl => h l (by simp [hl])) l.text (line_noNl (h l (by simp))) [], List.nil_append]

theorem split_fileOf (l : Line) (ls : List Line) (h : ∀ x ∈ l :: ls, x.OK) :
    used (fileOf (l :: ls)) = ((l :: ls).map Line.text).filter fun l => !blankOrComment l := by
  rw [used, split, fileOf, splitAux_tail ls (fun l hl => h l (by simp [hl])) _ (line_noNl (h l (by simp)))]
  rfl

/-- A row is not blank and not a comment. -/
theorem row_used {x : Tok Lit} {l : List (Tok Lit)} {trail : Str} (h : (Line.row x l trail).OK) :
    blankOrComment (Line.row x l trail).text = false := by
  obtain ⟨h1, h2, h3, h4⟩ := h
  obtain ⟨c, t, e, hc, hh⟩ := Verif.Table.lit_head h2
  have e2 : (Line.row x l trail).text = x.ws ++ (c :: (t ++ (l.flatMap numText ++ trail))) := by
    simp [Line.text, numText, e]
  have e3 : (x.ws ++ (c :: (t ++ (l.flatMap numText ++ trail)))).dropWhile isSpace = c :: (t ++ (l.flatMap numText ++ trail)) := by
    rw [dropWhile_blank (inLine_blank h1), List.dropWhile_cons, hc]
    simp
  rw [e2, blankOrComment, e3]
  simpa using hh

/-- The rows among the lines. -/
def isRow : Line → Bool
  | .row _ _ _ => true
  | .other _ => false

theorem used_fileOf (ls : List Line) (h : ∀ x ∈ ls, x.OK) :
    used (fileOf ls) = (ls.filter isRow).map Line.text := by
  cases ls with
  | nil => rfl
  | cons l ls =>
    rw [split_fileOf l ls h]
    generalize l :: ls = k at h
    induction k with
    | nil => rfl
    | cons l k ih =>
      have := ih fun x hx => h x (by simp [hx])
      cases l with
      | row x t trail =>
        rw [List.map_cons, List.filter_cons, row_used (h _ (by simp))]
        rw [List.filter_cons_of_pos (p := isRow) rfl, List.map_cons, ← this]
        rfl
      | other s =>
        rw [List.map_cons, List.filter_cons]
        have hb : blankOrComment (Line.other s).text = true := (h _ (by simp) : (Line.other s).OK).1
        rw [hb, List.filter_cons_of_neg (p := isRow) (by simp [isRow]), ← this]
        rfl

/-- The number of words in a row. -/
theorem fields_toks (l : List (Tok Lit)) (hl : ∀ t ∈ l, TokOK t) {trail : Str} (ht : InLine trail) (cur : Str) (hc : cur ≠ []) :
    (fieldsAux cur (l.flatMap numText ++ trail)).length = l.length + 1 := by
  induction l generalizing cur with
  | nil => rw [List.flatMap_nil, List.nil_append, fields_end hc (inLine_blank ht)]; rfl
  | cons t l ih =>
    have h := hl t (by simp)
    obtain ⟨c, w, e⟩ := List.exists_cons_of_ne_nil h.1
    have hb := inLine_blank h.2.1
    rw [List.flatMap_cons, numText, e, List.append_assoc, List.append_assoc, List.cons_append, fieldsAux, if_pos (hb c (by simp [e])), if_neg hc,
      fields_blank (ws := w) (fun d hd => hb d (by simp [e, hd])), fields_word (fun c hc => (lit_chars h.2.2 c hc).1),
      List.length_cons, List.append_nil, ih (fun t ht => hl t (by simp [ht])) _ (by simpa using lit_ne h.2.2), List.length_cons]

theorem words_row {x : Tok Lit} {l : List (Tok Lit)} {trail : Str} (h : (Line.row x l trail).OK) :
    words (Line.row x l trail).text = l.length + 1 := by
  obtain ⟨h1, h2, h3, h4⟩ := h
  rw [words, Verif.Table.fields, Line.text, numText, List.append_assoc, fields_blank (inLine_blank h1),
    fields_word (fun c hc => (lit_chars h2 c hc).1), List.append_nil, fields_toks l h3 h4 _ (by simpa using lit_ne h2)]

/-- `get_dims` on lines with the same number of words. -/
theorem dims_same (ss : List Str) (c : Nat) (h : ∀ s ∈ ss, words s = c) (d1 : Nat) :
    ∀ d2, d2 = c ∨ d2 = 0 → dimsLoop d1 d2 ss = .ok (d1 + ss.length, if ss = [] then d2 else c) := by
  induction ss generalizing d1 with
  | nil => intro d2 _; simp [dimsLoop]
  | cons s ss ih =>
    intro d2 hd
    have hs := h s (by simp)
    rw [dimsLoop, if_neg (by rintro ⟨a, b⟩; rcases hd with e | e <;> omega), hs, ih (fun s hs => h s (by simp [hs])) (d1 + 1) c (Or.inl rfl)]
    simp [Nat.add_assoc, Nat.add_comm 1]

/-- A line that is used has a word. -/
theorem words_pos {s : Str} (h : blankOrComment s = false) : 0 < words s := by
  unfold blankOrComment at h
  have key : ∀ s : Str, s.dropWhile isSpace ≠ [] → fieldsAux [] s ≠ [] := by
    intro s
    induction s with
    | nil => simp
    | cons c s ih =>
      intro hne
      by_cases hc : isSpace c = true
      · rw [fieldsAux, if_pos hc, if_pos rfl]
        exact ih (by simpa [hc] using hne)
      · rw [fieldsAux, if_neg hc]
        have aux : ∀ (s cur : Str), cur ≠ [] → fieldsAux cur s ≠ [] := by
          intro s
          induction s with
          | nil => intro cur hc; rw [fieldsAux, if_neg hc]; simp
          | cons d s ih2 =>
            intro cur hcur
            rw [fieldsAux, if_neg hcur]
            split
            · simp
            · exact ih2 _ (by simp)
        exact aux s [c] (by simp)
  have hne : s.dropWhile isSpace ≠ [] := by
    intro e
    rw [e] at h
    simp at h
  exact List.length_pos_iff.mpr (key s hne)

theorem dims_ragged (ss : List Str) (h : ∀ s ∈ ss, 0 < words s) (d1 d2 : Nat)
    (hx : (0 < d2 ∧ ∃ s ∈ ss, words s ≠ d2) ∨ (∃ s ∈ ss, ∃ t ∈ ss, words s ≠ words t)) : dimsLoop d1 d2 ss = .error .ragged := by
  induction ss generalizing d1 d2 with
  | nil => rcases hx with ⟨_, s, hs, _⟩ | ⟨s, hs, _⟩ <;> simp at hs
  | cons s ss ih =>
    rw [dimsLoop]
    by_cases hc : 0 < d2 ∧ d2 ≠ words s
    · rw [if_pos hc]
    · rw [if_neg hc]
      refine ih (fun s hs => h s (by simp [hs])) _ _ (Or.inl ⟨h s (by simp), ?_⟩)
      by_contra hno
      have hall : ∀ t ∈ ss, words t = words s := by
        intro t ht
        by_contra hne
        exact hno ⟨t, ht, hne⟩
      have hall2 : ∀ t ∈ s :: ss, words t = words s := by
        intro t ht
        rcases List.mem_cons.mp ht with e | e
        · rw [e]
        · exact hall t e
      rcases hx with ⟨hp, t, ht, hne⟩ | ⟨a, ha, b, hb, hne⟩
      · have e1 := hall2 t ht
        exact hc ⟨hp, by rw [← e1]; exact Ne.symm hne⟩
      · exact hne (by rw [hall2 a ha, hall2 b hb])

/-! ## All numbers of a matrix -/

/-- Reading the rows. -/
theorem readN_rows (F : Fmt K) (ls : List Line) (h : ∀ l ∈ ls, l.OK ∧ isRow l = true) (c : Nat)
    (hc : ∀ l ∈ ls, ∀ r, l.toks = some r → r.length = c) {pre : Str} (hp : Blank pre) (m : List (List K)) (hm : contents F ls = some m) :
    ∃ post, readN (readN (readOne F) c) ls.length (pre ++ ls.flatMap fun l => l.text ++ ['\n']) = some (m, post) := by
  induction ls generalizing pre m with
  | nil =>
    have : m = [] := by simpa [contents, eq_comm] using hm
    subst this
    exact ⟨_, rfl⟩
  | cons l ls ih =>
    obtain ⟨ho, hr⟩ := h l (by simp)
    cases l with
    | other s => simp [isRow] at hr
    | row x t trail =>
      rw [contents, List.filterMap_cons_some (b := x :: t) (by rfl), List.mapM_cons] at hm
      cases hx : (x :: t).mapM (fun t => F.num t.v.val) with
      | none => rw [hx] at hm; simp at hm
      | some v =>
        rw [hx] at hm
        cases hy : contents F ls with
        | none => rw [contents] at hy; simp [hy] at hm
        | some m' =>
          have hy' := hy
          rw [contents] at hy'
          have e : m = v :: m' := by simpa [hy', eq_comm] using hm
          subst e
          have hlen : t.length + 1 = c := hc _ (List.mem_cons_self ..) (x :: t) rfl
          have e2 : pre ++ ((Line.row x t trail :: ls).flatMap fun l => l.text ++ ['\n']) =
              pre ++ ((Line.row x t trail).text ++ ('\n' :: ls.flatMap fun l => l.text ++ ['\n'])) := by simp
          have hrow := readN_row F hp ho ('\n' :: ls.flatMap fun l => l.text ++ ['\n']) (Verif.Table.sep_nl _) v hx
          have e3 : trail ++ ('\n' :: ls.flatMap fun l => l.text ++ ['\n']) =
              (trail ++ ['\n']) ++ ls.flatMap fun l => l.text ++ ['\n'] := by simp
          obtain ⟨post, hpost⟩ := ih (fun l hl => h l (by simp [hl])) (fun l hl => hc l (by simp [hl]))
            (blank_append (inLine_blank ho.2.2.2) blank_nl) m' hy
          refine ⟨post, ?_⟩
          rw [hlen] at hrow
          rw [List.length_cons, e2, readN_step hrow, e3, hpost]

theorem readN_rows_none (F : Fmt K) (ls : List Line) (h : ∀ l ∈ ls, l.OK ∧ isRow l = true) (c : Nat)
    (hc : ∀ l ∈ ls, ∀ r, l.toks = some r → r.length = c) {pre : Str} (hp : Blank pre) (hm : contents F ls = none) :
    readN (readN (readOne F) c) ls.length (pre ++ ls.flatMap fun l => l.text ++ ['\n']) = none := by
  induction ls generalizing pre with
  | nil => simp [contents] at hm
  | cons l ls ih =>
    obtain ⟨ho, hr⟩ := h l (by simp)
    cases l with
    | other s => simp [isRow] at hr
    | row x t trail =>
      rw [contents, List.filterMap_cons_some (b := x :: t) (by rfl), List.mapM_cons] at hm
      have hlen : t.length + 1 = c := hc _ (List.mem_cons_self ..) (x :: t) rfl
      have e2 : pre ++ ((Line.row x t trail :: ls).flatMap fun l => l.text ++ ['\n']) =
          pre ++ ((Line.row x t trail).text ++ ('\n' :: ls.flatMap fun l => l.text ++ ['\n'])) := by simp
      rw [List.length_cons, e2]
      cases hx : (x :: t).mapM (fun t => F.num t.v.val) with
      | none =>
        have := readN_row_none F hp ho ('\n' :: ls.flatMap fun l => l.text ++ ['\n']) (Verif.Table.sep_nl _) hx
        rw [hlen] at this
        rw [readN_fail this]
      | some v =>
        rw [hx] at hm
        have hy : contents F ls = none := by
          rw [contents]
          cases hz : (ls.filterMap Line.toks).mapM (fun r => r.mapM fun t => F.num t.v.val) with
          | none => rfl
          | some z => rw [hz] at hm; simp at hm
        have hrow := readN_row F hp ho ('\n' :: ls.flatMap fun l => l.text ++ ['\n']) (Verif.Table.sep_nl _) v hx
        have e3 : trail ++ ('\n' :: ls.flatMap fun l => l.text ++ ['\n']) =
            (trail ++ ['\n']) ++ ls.flatMap fun l => l.text ++ ['\n'] := by simp
        rw [hlen] at hrow
        rw [readN_step hrow, e3, ih (fun l hl => h l (by simp [hl])) (fun l hl => hc l (by simp [hl]))
            (blank_append (inLine_blank ho.2.2.2) blank_nl) hy]

theorem contents_filter (F : Fmt K) (ls : List Line) : contents F (ls.filter isRow) = contents F ls := by
  unfold contents
  congr 1
  induction ls with
  | nil => rfl
  | cons l ls ih =>
    cases l with
    | row x t tr => rw [List.filter_cons_of_pos (p := isRow) rfl, List.filterMap_cons_some (show Line.toks (.row x t tr) = some (x :: t) from rfl), List.filterMap_cons_some (show Line.toks (.row x t tr) = some (x :: t) from rfl), ih]
    | other s => rw [List.filter_cons_of_neg (p := isRow) (by simp [isRow]), List.filterMap_cons_none (show Line.toks (.other s) = none from rfl), ih]

theorem mapM_length {α β : Type} {f : α → Option β} {l : List α} {m : List β} (h : l.mapM f = some m) : m.length = l.length := by
  induction l generalizing m with
  | nil => simp at h; simp [← h]
  | cons a l ih =>
    rw [List.mapM_cons] at h
    cases ha : f a with
    | none => simp [ha] at h
    | some b =>
      cases hl : l.mapM f with
      | none => simp [ha, hl] at h
      | some m' =>
        have e : m = b :: m' := by simpa [ha, hl, eq_comm] using h
        rw [e, List.length_cons, List.length_cons, ih hl]

theorem contents_length (F : Fmt K) (ls : List Line) (m : List (List K)) (h : contents F ls = some m) :
    m.length = (ls.filter isRow).length := by
  have h1 : m.length = (ls.filterMap Line.toks).length := by
    unfold contents at h
    exact mapM_length h
  rw [h1]
  clear h h1
  induction ls with
  | nil => rfl
  | cons l ls ih =>
    cases l with
    | row x t tr => rw [List.filter_cons_of_pos (p := isRow) rfl, List.filterMap_cons_some (show Line.toks (.row x t tr) = some (x :: t) from rfl), List.length_cons, List.length_cons, ih]
    | other s => rw [List.filter_cons_of_neg (p := isRow) (by simp [isRow]), List.filterMap_cons_none (show Line.toks (.other s) = none from rfl), ih]

end Verif.Mx
