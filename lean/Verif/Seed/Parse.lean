import Verif.Seed.Lemmas
/-! # Parsing the lines of a template -/

namespace Verif.Seed

open Verif.Text
open Verif.Invar (Label)
open Verif.DataFile

variable {K : Type} [Field K] [LinearOrder K]

theorem parseSize_digits {s : Str} {n : Nat} (hne : s ≠ []) (hd : ∀ c ∈ s, isDigit c = true) (hv : natValue s = n) (hn : n < 2 ^ 64) :
    parseSize s = some n := by
  have hs : strip s = s := Param.strip_of_ends (fun c hc => digit_not_space (hd c (List.mem_of_mem_head? hc)))
    (fun c hc => digit_not_space (hd c (List.mem_of_getLast? hc)))
  unfold parseSize
  rw [hs]
  dsimp only
  rw [if_pos ⟨hne, List.all_eq_true.2 hd, by omega⟩, hv]

/-- The first token at the beginning of a line is read as with white space. -/
theorem extractor_atStart {l : LabT} {n : Nat} (hl : l.length = n) (h1 : OneLine l) (h2 : ∀ t ∈ l, inInt t.v) (rest : Str) (hr : Sep rest) :
    extractor n (labText (atStart l) ++ rest) = some (labVal l, rest) := by
  subst hl
  cases l with
  | nil => rfl
  | cons t l =>
    have hr2 := reads_lab l (fun x hx => ⟨(h1 x hx).1, h2 x (by simp [hx])⟩) rest hr
    have hs : Sep (labText l ++ rest) := by
      cases l with
      | nil => exact hr
      | cons y l =>
        unfold labText
        rw [List.flatMap_cons, List.append_assoc]
        unfold intText
        rw [List.append_assoc]
        exact (sep_tok (h1 y (by simp)).1 _).1
    change extractor (l.length + 1) (([] ++ intStr t.v ++ labText l) ++ rest) = _
    rw [extractor, List.nil_append, List.append_assoc, readInt_intStr t.v (h2 t (by simp)) _ (sep_noDigit hs)]
    dsimp only
    rw [hr2]
    rfl

theorem parseInvar_line {P : Par} {l : LabT} (h : LabLine P l) : parseInvar P.invdim (labText (atStart l)) = some (labVal l) := by
  have := extractor_atStart h.1 h.2.1 h.2.2 [] sep_nil
  rw [List.append_nil] at this
  unfold parseInvar
  rw [this]
  dsimp only
  rw [if_pos (by decide)]

theorem parsePair_line {P : Par} {l m : LabT} (hl : LabLine P l) (hm : LabLine P m) (hh : ∀ t ∈ m.head?, t.OK ∧ '\n' ∉ t.ws) :
    parsePair P.invdim (labText (atStart l) ++ labText m) = some (labVal l, labVal m) := by
  have hall : ∀ t ∈ m, IntOK t := by
    intro t ht
    refine ⟨?_, hm.2.2 t ht⟩
    cases m with
    | nil => simp at ht
    | cons x m =>
      rcases List.mem_cons.1 ht with rfl | ht
      · exact (hh _ (by simp)).1
      · exact (hm.2.1 t ht).1
  have hs : Sep (labText m) := by
    cases m with
    | nil => exact sep_nil
    | cons x m =>
      unfold labText intText
      rw [List.flatMap_cons, List.append_assoc]
      exact (sep_tok (hall x (by simp)).1 _).1
  unfold parsePair
  rw [extractor_atStart hl.1 hl.2.1 hl.2.2 _ hs]
  dsimp only
  have := reads_lab' P m ⟨hm.1, hall⟩ [] sep_nil
  rw [List.append_nil] at this
  rw [this]
  dsimp only
  rw [if_pos (by decide)]

theorem diagFile_line {gap file tail : Str} (h1 : gap ≠ [] ∧ Blank gap) (h2 : Word file) (h3 : Sep tail) :
    diagFile ("DIAG".toList ++ (gap ++ (file ++ tail))) = some file := by
  unfold diagFile
  have := readWord_word (p := []) (w := "DIAG".toList) (r := gap ++ (file ++ tail)) (by intro c hc; simp at hc) ⟨by decide, by decide⟩
    (sep_ws h1.2 h1.1)
  rw [List.nil_append] at this
  rw [this]
  dsimp only
  rw [readWord_word h1.2 h2 h3]
  dsimp only
  rw [if_pos ⟨rfl, h2.1⟩]

theorem readHeader_line {a b : Tok Nat} {e : Str} (ha : NatOK a) (hb : NatOK b) (he : Sep e) :
    readHeader (natStr 1 ++ (natText a ++ (natText b ++ e))) = some (1, a.v, b.v) := by
  unfold readHeader
  have s1 : Sep (natText b ++ e) := by unfold natText; rw [List.append_assoc]; exact (sep_tok hb.1 _).1
  have s2 : Sep (natText a ++ (natText b ++ e)) := by unfold natText; rw [List.append_assoc]; exact (sep_tok ha.1 _).1
  rw [reads_nat' 1 (by decide) _ (sep_noDigit s2)]
  dsimp only
  rw [reads_nat a ha _ s1]
  dsimp only
  rw [reads_nat b hb _ he]

/-! ## Rows of numbers -/

theorem parseDouble_lit {l : Lit} (h : l.OK) : parseDouble (K := K) l.text = some (num l.val) := by
  have := reads_lit l h [] sep_nil
  rw [List.append_nil] at this
  unfold parseDouble
  rw [this]
  dsimp only
  rw [if_pos (by decide)]

theorem lit_word {l : Lit} (h : l.OK) : Word l.text := ⟨Table.lit_ne h, fun c hc => (Table.lit_chars h c hc).1⟩

theorem sep_nums {r : List (Tok Lit)} (h : ∀ t ∈ r, t.OK) : Sep (r.flatMap numText) := by
  cases r with
  | nil => exact sep_nil
  | cons t r =>
    rw [List.flatMap_cons]
    unfold numText
    rw [List.append_assoc]
    exact (sep_tok (h t (by simp)) _).1

theorem fields_toks (r : List (Tok Lit)) (h : ∀ t ∈ r, t.OK ∧ t.v.OK) (n : Nat) (hn : (r.flatMap numText).length ≤ n) :
    fields n (r.flatMap numText) = r.map fun t => t.v.text := by
  induction r generalizing n with
  | nil =>
    cases n with
    | zero => rfl
    | succ n => rfl
  | cons t r ih =>
    have ht := h t (by simp)
    have hlen : 1 ≤ (numText t).length := by
      unfold numText
      rw [List.length_append]
      have := List.length_pos_iff.2 (Table.lit_ne ht.2)
      omega
    rw [List.flatMap_cons, List.length_append] at hn
    cases n with
    | zero => omega
    | succ n =>
      rw [fields]
      have := readWord_word (p := t.ws) (w := t.v.text) (r := r.flatMap numText) ht.1.2 (lit_word ht.2)
        (sep_nums fun x hx => (h x (by simp [hx])).1)
      rw [List.flatMap_cons, show numText t = t.ws ++ t.v.text from rfl, List.append_assoc]
      change (if (readWord (t.ws ++ (t.v.text ++ r.flatMap numText))).1 = [] then [] else _ :: _) = _
      rw [this]
      rw [if_neg (Table.lit_ne ht.2)]
      rw [ih (fun x hx => h x (by simp [hx])) n (by omega)]
      rfl

theorem fields_atStart (r : List (Tok Lit)) (h1 : OneLine r) (h2 : ∀ t ∈ r, t.v.OK) :
    fields ((atStart r).flatMap numText).length ((atStart r).flatMap numText) = r.map fun t => t.v.text := by
  cases r with
  | nil => rfl
  | cons t r =>
    have ht := h2 t (by simp)
    have hr : ∀ x ∈ r, x.OK ∧ x.v.OK := fun x hx => ⟨(h1 x hx).1, h2 x (by simp [hx])⟩
    have e : (atStart (t :: r)).flatMap numText = t.v.text ++ r.flatMap numText := by
      simp [atStart, numText]
    rw [e]
    have hlen : 1 ≤ t.v.text.length := List.length_pos_iff.2 (Table.lit_ne ht)
    obtain ⟨n, hn⟩ : ∃ n, (t.v.text ++ r.flatMap numText).length = n + 1 :=
      ⟨_, (Nat.succ_pred_eq_of_pos (by rw [List.length_append]; omega)).symm⟩
    rw [hn, fields]
    have := readWord_word (p := []) (w := t.v.text) (r := r.flatMap numText) (by intro c hc; simp at hc) (lit_word ht)
      (sep_nums fun x hx => (hr x hx).1)
    rw [List.nil_append] at this
    rw [this]
    dsimp only
    rw [if_neg (Table.lit_ne ht), fields_toks r hr n (by rw [List.length_append] at hn; omega)]
    rfl

theorem mapM_some {α β : Type} (f : α → Option β) (g : α → β) (l : List α) (h : ∀ a ∈ l, f a = some (g a)) :
    l.mapM f = some (l.map g) := by
  induction l with
  | nil => rfl
  | cons a l ih =>
    rw [List.mapM_cons, h a (by simp), ih fun x hx => h x (by simp [hx])]
    rfl

theorem inlineMatrix_rows (ls : List (Ln × List (Tok Lit))) (c : Nat)
    (h : ∀ p ∈ ls, p.1.OK ∧ p.1.body = (atStart p.2).flatMap numText ∧ p.2.length = c ∧ OneLine p.2 ∧ ∀ t ∈ p.2, t.v.OK) :
    inlineMatrix (K := K) (ls.map fun p => p.1.body) c = some (ls.map fun p => p.2.map fun t => num t.v.val) := by
  unfold inlineMatrix
  rw [List.mapM_map]
  refine mapM_some _ _ _ ?_
  intro p hp
  obtain ⟨-, h1, h2, h3, h4⟩ := h p hp
  dsimp only [Function.comp]
  have e : fields p.1.body.length p.1.body = p.2.map fun t => t.v.text := by rw [h1, fields_atStart p.2 h3 h4]
  simp only [e]
  rw [if_pos (by rw [List.length_map]; exact h2), List.mapM_map]
  exact mapM_some _ _ _ fun t ht => parseDouble_lit (h4 t ht)

theorem moreLines_lns (ls : List Ln) (h : ∀ l ∈ ls, l.OK) (rest : List Str) (sc : Option K) (out : Str) :
    moreLines ls.length ⟨lnLines ls ++ rest, sc, out⟩ =
      some (ls.map Ln.body, ⟨rest, scaleAfter (junks ls) sc, out ++ comText (junks ls)⟩) := by
  induction ls generalizing sc out with
  | nil => simp [moreLines, lnLines, junks, scaleAfter, comText, coms]
  | cons l ls ih =>
    have e : lnLines (l :: ls) ++ rest = l.lines ++ (lnLines ls ++ rest) := by simp [lnLines]
    rw [List.length_cons, moreLines, e, stnext_ln l (h l (by simp))]
    dsimp only
    rw [ih (fun x hx => h x (by simp [hx]))]
    dsimp only
    rw [show junks (l :: ls) = l.pre ++ junks ls from rfl, scaleAfter_append, comText_append, List.append_assoc]
    rfl

end Verif.Seed
