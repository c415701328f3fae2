import Verif.Seed.Spec
import Verif.DataFile.Props
import Verif.Param.Lemmas
import Verif.Param.Props
import Verif.Table.Props
/-! # Reading the lines of a template -/

namespace Verif.Seed

open Verif.Text
open Verif.Invar (Label)
open Verif.DataFile

variable {K : Type} [Field K] [LinearOrder K]

/-! ## Lines -/

theorem dropWhile_ws {w s : Str} (hw : Blank w) (hs : ∀ c ∈ s.head?, isSpace c = false) : (w ++ s).dropWhile isSpace = s := by
  rw [dropWhile_blank hw]
  cases s with
  | nil => rfl
  | cons c s => rw [List.dropWhile_cons_of_neg (by rw [hs c (by simp)]; simp)]

theorem strip_mid {p w q : Str} (hp : Blank p) (hq : Blank q) (h1 : ∀ c ∈ w.head?, isSpace c = false)
    (h2 : ∀ c ∈ w.getLast?, isSpace c = false) (hne : w ≠ []) : strip (p ++ (w ++ q)) = w := by
  unfold strip stripTrailing stripLeading
  have e : (p ++ (w ++ q)).dropWhile isSpace = w ++ q := by
    refine dropWhile_ws hp ?_
    cases w with
    | nil => exact absurd rfl hne
    | cons c w => simpa using h1
  rw [e, List.reverse_append, dropWhile_ws, List.reverse_reverse]
  · intro c hc; exact hq c (List.mem_reverse.1 hc)
  · rw [List.head?_reverse]; exact h2

theorem strip_blank {w : Str} (h : Blank w) : strip w = [] := by
  have : w.dropWhile isSpace = [] := by
    have := dropWhile_ws (s := []) h (by simp)
    simpa using this
  unfold strip stripTrailing stripLeading
  rw [this]; rfl

theorem strip_com {lead : Str} (t : Str) (h : Blank lead) : ∃ u v, strip (lead ++ '#' :: t) = '#' :: u ∧ t = u ++ v ∧ Blank v := by
  have e : (lead ++ '#' :: t).dropWhile isSpace = '#' :: t := dropWhile_ws h (by intro c hc; simp at hc; subst hc; decide)
  unfold strip stripTrailing stripLeading
  rw [e, List.reverse_cons]
  refine ⟨(t.reverse.dropWhile isSpace).reverse, (t.reverse.takeWhile isSpace).reverse, ?_, ?_, ?_⟩
  · have : ∀ x : Str, (x ++ ['#']).dropWhile isSpace = x.dropWhile isSpace ++ ['#'] := by
      intro x
      induction x with
      | nil => decide
      | cons c x ih =>
        rw [List.cons_append]
        by_cases hc : isSpace c = true
        · rw [List.dropWhile_cons_of_pos hc, List.dropWhile_cons_of_pos hc, ih]
        · rw [List.dropWhile_cons_of_neg hc, List.dropWhile_cons_of_neg hc, List.cons_append]
    rw [this]
    simp
  · rw [← List.reverse_append, List.takeWhile_append_dropWhile, List.reverse_reverse]
  · intro c hc
    exact List.all_eq_true.1 (List.all_takeWhile) c (List.mem_reverse.1 hc)

/-- The scale after comments. -/
def scaleAfter : List Junk → Option K → Option K
  | [], sc => sc
  | .blank _ :: js, sc => scaleAfter js sc
  | .com a b :: js, sc => scaleAfter js (newScale (a ++ '#' :: b) sc)

theorem scaleAfter_append (a b : List Junk) (sc : Option K) : scaleAfter (a ++ b) sc = scaleAfter b (scaleAfter a sc) := by
  induction a generalizing sc with
  | nil => rfl
  | cons j a ih => cases j <;> exact ih _

/-- The text of comments. -/
def comText (js : List Junk) : Str := (coms js).flatMap fun c => c.1 ++ ('#' :: (c.2 ++ ['\n']))

theorem comText_append (a b : List Junk) : comText (a ++ b) = comText a ++ comText b := by
  unfold comText coms
  rw [List.filterMap_append, List.flatMap_append]

theorem coms_append (a b : List Junk) : coms (a ++ b) = coms a ++ coms b := List.filterMap_append

theorem next_junk (js : List Junk) (h : ∀ j ∈ js, j.OK) (rest : List Str) (sc : Option K) (out : Str) :
    next (js.map Junk.line ++ rest) sc out = next rest (scaleAfter js sc) (out ++ comText js) := by
  induction js generalizing sc out with
  | nil => simp [scaleAfter, comText, coms]
  | cons j js ih =>
    have ih' := fun sc out => ih (fun x hx => h x (by simp [hx])) sc out
    have hj := h j (by simp)
    rw [List.map_cons, List.cons_append, next]
    cases j with
    | blank ws =>
      rw [show strip (Junk.blank ws).line = [] from strip_blank hj.1]
      exact ih' sc out
    | com a b =>
      obtain ⟨u, v, h1, -, -⟩ := strip_com (lead := a) b hj.1
      rw [show strip (Junk.com a b).line = '#' :: u from h1]
      dsimp only
      rw [if_pos rfl, ih']
      congr 1
      simp [comText, coms, Junk.line]

theorem next_ln (l : Ln) (h : l.OK) (rest : List Str) (sc : Option K) (out : Str) :
    next (l.lines ++ rest) sc out = (some l.body, ⟨rest, scaleAfter l.pre sc, out ++ comText l.pre⟩) := by
  unfold Ln.lines
  rw [List.append_assoc, next_junk _ h.pre, List.singleton_append, next,
    strip_mid h.lead.1 h.trail.1 (fun c hc => (h.first c hc).1) h.last h.ne]
  cases hb : l.body with
  | nil => exact absurd hb h.ne
  | cons c t =>
    have := h.first c (by rw [hb]; simp)
    dsimp only
    rw [if_neg this.2]

theorem stnext_ln (l : Ln) (h : l.OK) (rest : List Str) (sc : Option K) (out : Str) :
    St.next ⟨l.lines ++ rest, sc, out⟩ = (some l.body, ⟨rest, scaleAfter l.pre sc, out ++ comText l.pre⟩) := next_ln l h rest sc out

/-! ## Words and scales -/

theorem word_split {w r : Str} (hw : ∀ c ∈ w, isSpace c = false) (hr : Sep r) :
    ((w ++ r).takeWhile fun c => !isSpace c) = w ∧ ((w ++ r).dropWhile fun c => !isSpace c) = r := by
  induction w with
  | nil =>
    cases r with
    | nil => exact ⟨rfl, rfl⟩
    | cons c r =>
      have : isSpace c = true := hr c (by simp)
      rw [List.nil_append, List.takeWhile_cons_of_neg (by rw [this]; simp), List.dropWhile_cons_of_neg (by rw [this]; simp)]
      exact ⟨rfl, rfl⟩
  | cons c w ih =>
    have hc : isSpace c = false := hw c (by simp)
    obtain ⟨a, b⟩ := ih fun x hx => hw x (by simp [hx])
    rw [List.cons_append, List.takeWhile_cons_of_pos (by rw [hc]; simp), List.dropWhile_cons_of_pos (by rw [hc]; simp), a, b]
    exact ⟨rfl, rfl⟩

theorem readWord_word {p w r : Str} (hp : Blank p) (hw : Word w) (hr : Sep r) : readWord (p ++ (w ++ r)) = (w, r) := by
  unfold readWord
  rw [dropWhile_ws hp]
  · obtain ⟨a, b⟩ := word_split hw.2 hr
    dsimp only
    rw [a, b]
  · cases hw' : w with
    | nil => exact absurd hw' hw.1
    | cons c t => intro x hx; simp at hx; subst hx; exact hw.2 _ (by rw [hw']; simp)

/-- What `readWord` returns. -/
theorem readWord_spec (s : Str) : ∃ p, Blank p ∧ s = p ++ ((readWord s).1 ++ (readWord s).2) ∧ (∀ c ∈ (readWord s).1, isSpace c = false) ∧ Sep (readWord s).2 := by
  refine ⟨s.takeWhile isSpace, ?_, ?_, ?_, ?_⟩
  · intro c hc; exact List.all_eq_true.1 (List.all_takeWhile) c hc
  · unfold readWord
    dsimp only
    rw [List.takeWhile_append_dropWhile, List.takeWhile_append_dropWhile]
  · intro c hc
    have := List.all_eq_true.1 (List.all_takeWhile) c hc
    simpa using this
  · intro c hc
    have := List.head?_dropWhile_not (fun c => !isSpace c) (s.dropWhile isSpace)
    unfold readWord at hc
    dsimp only at hc
    rw [Option.mem_def.1 hc] at this
    simpa using this

theorem blank_prefix {u v : Str} (h : Blank (u ++ v)) : Blank u ∧ Blank v :=
  ⟨fun c hc => h c (by simp [hc]), fun c hc => h c (by simp [hc])⟩

theorem hash_word : Word "#".toList := by
  rw [show "#".toList = ['#'] by decide]
  exact ⟨by simp, by simp; decide⟩

theorem SCALE_word : Word "SCALE".toList := by
  constructor
  · decide
  · decide

/-- Comments that give no scale do not change it. -/
theorem newScale_none {lead t : Str} (h : Blank lead) (hn : ∀ r, ¬ IsScale t r) (sc : Option K) :
    newScale (lead ++ '#' :: t) sc = sc := by
  obtain ⟨u, v, h1, h2, h3⟩ := strip_com t h
  unfold newScale
  rw [h1]
  have : scaleOf (K := K) ('#' :: u) = none := by
    unfold scaleOf
    dsimp only
    rw [if_neg]
    rintro ⟨e1, e2⟩
    -- the first word is the hash sign
    obtain ⟨p, hp, hs, -, hsep⟩ := readWord_spec ('#' :: u)
    obtain ⟨p', hp', hs', -, hsep'⟩ := readWord_spec (readWord ('#' :: u)).2
    rw [e1] at hs
    rw [e2] at hs'
    have hp0 : p = [] := by
      cases p with
      | nil => rfl
      | cons c p =>
        have : c = '#' := by simp at hs; exact hs.1.symm
        subst this
        exact absurd (hp '#' (by simp)) (by decide)
    subst hp0
    have hu : u = (readWord ('#' :: u)).2 := by
      have : "#".toList = ['#'] := by decide
      rw [this] at hs
      simpa using hs
    rw [← hu] at hs' hsep
    have hp'' : p' ≠ [] := by
      rintro rfl
      have hS : u.head? = some 'S' := by
        rw [hs', List.nil_append]
        have : "SCALE".toList = 'S' :: "CALE".toList := by decide
        rw [this]; rfl
      exact absurd (hsep 'S' (by rw [hS]; simp)) (by decide)
    refine hn ((readWord u).2 ++ v) ⟨p', hp'', hp', ?_, ?_⟩
    · rw [h2]
      conv_lhs => rw [hs']
      simp
    · rw [← hu] at hsep'
      exact sep_append (fun _ => hsep') (sep_blank h3)
  rw [this]

theorem newScale_some {lead t w tail : Str} {l : Lit} (h : Blank lead) (hs : IsScale t (w ++ (l.text ++ tail))) (hw : Blank w) (hl : l.OK)
    (ht : Sep tail) (sc : Option K) : newScale (lead ++ '#' :: t) sc = some (num l.val) := by
  obtain ⟨u, v, h1, h2, h3⟩ := strip_com t h
  obtain ⟨p, hp1, hp2, he, hsep⟩ := hs
  -- the trimmed text still has the number in it
  have hl' : l.text ≠ [] := Table.lit_ne hl
  have hlast : ∀ c ∈ l.text.getLast?, isSpace c = false := fun c hc => (Table.lit_chars hl c (List.mem_of_getLast? hc)).1
  obtain ⟨tail', hu, ht'⟩ : ∃ tail', u = p ++ ("SCALE".toList ++ (w ++ (l.text ++ tail'))) ∧ Sep tail' := by
    have e : u ++ v = (p ++ ("SCALE".toList ++ (w ++ l.text))) ++ tail := by rw [← h2, he]; simp
    rcases List.append_eq_append_iff.1 e with ⟨a, ha, hb⟩ | ⟨a, ha, hb⟩
    · -- u shorter: the end of the number would be white space
      have ha0 : a = [] := by
        by_contra hne
        have hlast' : ∀ c ∈ (p ++ ("SCALE".toList ++ (w ++ l.text))).getLast?, isSpace c = false := by
          intro c hc
          have : (p ++ ("SCALE".toList ++ (w ++ l.text))).getLast? = l.text.getLast? := by
            rw [← List.append_assoc, ← List.append_assoc, List.getLast?_append]
            cases hx : l.text.getLast? with
            | none => rw [List.getLast?_eq_none_iff] at hx; exact absurd hx hl'
            | some x => rfl
          rw [this] at hc
          exact hlast c hc
        rw [ha, List.getLast?_append] at hlast'
        cases hx : a.getLast? with
        | none => rw [List.getLast?_eq_none_iff] at hx; exact hne hx
        | some x =>
          rw [hx] at hlast'
          have h5 := hlast' x (by simp)
          have h6 := h3 x (by rw [hb]; exact List.mem_append_left _ (List.mem_of_getLast? hx))
          rw [h5] at h6
          exact absurd h6 (by simp)
      subst ha0
      rw [List.append_nil] at ha
      exact ⟨[], by rw [← ha]; simp, sep_nil⟩
    · refine ⟨a, by rw [ha]; simp, ?_⟩
      exact sep_prefix ht ⟨v, hb.symm⟩
  have hsc : Sep (w ++ (l.text ++ tail')) := by
    have := hsep
    cases w with
    | nil =>
      cases hx : l.text with
      | nil => exact absurd hx hl'
      | cons c r =>
        rw [hx] at this
        exact this
    | cons c w => exact this
  unfold newScale
  rw [h1, hu]
  have : scaleOf (K := K) ('#' :: (p ++ ("SCALE".toList ++ (w ++ (l.text ++ tail'))))) = some (num l.val) := by
    unfold scaleOf
    have e1 : readWord ('#' :: (p ++ ("SCALE".toList ++ (w ++ (l.text ++ tail'))))) = ("#".toList, p ++ ("SCALE".toList ++ (w ++ (l.text ++ tail')))) := by
      have := readWord_word (p := []) (w := "#".toList) (r := p ++ ("SCALE".toList ++ (w ++ (l.text ++ tail'))))
        (by intro c hc; simp at hc) hash_word (sep_ws hp2 hp1)
      exact this
    rw [e1]
    dsimp only
    rw [readWord_word hp2 SCALE_word hsc]
    dsimp only
    rw [if_pos ⟨rfl, rfl⟩, Table.readDec_blank hw, reads_lit l hl _ ht']
  rw [this]

theorem scaleAfter_none (js : List Junk) (h : ∀ j ∈ js, j.OK) (hn : ∀ lead t r, Junk.com lead t ∈ js → ¬ IsScale t r) (sc : Option K) :
    scaleAfter js sc = sc := by
  induction js generalizing sc with
  | nil => rfl
  | cons j js ih =>
    have ih' := ih (fun x hx => h x (by simp [hx])) (fun a b r hx => hn a b r (by simp [hx]))
    cases j with
    | blank ws => exact ih' sc
    | com a b =>
      unfold scaleAfter
      rw [newScale_none (h (.com a b) (by simp)).1 (fun r => hn a b r (by simp)), ih']

theorem scaleAfter_last {js : List Junk} {x : K} (h : ∀ j ∈ js, j.OK) (hs : LastScale js x) (sc : Option K) : scaleAfter js sc = some x := by
  obtain ⟨a, lead, t, w, l, tail, b, rfl, h1, h2, h3, h4, h5, h6⟩ := hs
  have hc := h (.com lead t) (by simp)
  rw [scaleAfter_append]
  change scaleAfter b (newScale (lead ++ '#' :: t) _) = _
  rw [newScale_some hc.1 h1 h2 h3 h4, scaleAfter_none b (fun j hj => h j (by simp [hj])) h6, h5]

end Verif.Seed
