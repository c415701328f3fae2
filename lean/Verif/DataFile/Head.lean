import Verif.DataFile.Parts
/-! # The header -/

namespace Verif.DataFile

open Verif.Text
open Verif.Invar (Label)

/-- What a line of the header does to data version and symmetry type. -/
def HLine.eff : HLine → Int × Str → Int × Str
  | .ver, a => (9, a.2)
  | .txt l, a => (a.1, symOf l a.2)

def HLine.Shape : HLine → Prop
  | .ver => True
  | .txt l => '\n' ∉ l ∧ l.head? ≠ some '!'

theorem dropNl_ws (s : Str) : (dropNl s).dropWhile isSpace = s.dropWhile isSpace := by
  cases s with
  | nil => rfl
  | cons c s =>
    rw [dropNl]
    by_cases h : c = '\n'
    · rw [if_pos h, List.dropWhile_cons_of_pos (by rw [h]; decide)]
    · rw [if_neg h]

theorem head_of_ws {s : Str} (h : (s.dropWhile isSpace).head? ≠ some '#') : s.head? ≠ some '#' := by
  cases s with
  | nil => simp
  | cons c s =>
    intro e
    simp at e; subst e
    exact h rfl

theorem headerLoop_stop (n : Nat) (v : Int) (s rest : Str) (h : rest.head? ≠ some '#') :
    headerLoop n v s rest = some ((v, s), rest) := by
  cases n with
  | zero => rfl
  | succ n =>
    cases rest with
    | nil => rfl
    | cons c r =>
      rw [headerLoop, if_neg]
      rintro rfl; exact h rfl

theorem line_split (l y : Str) (h : '\n' ∉ l) : takeLine (l ++ '\n' :: y) = l ∧ afterLine (l ++ '\n' :: y) = y := by
  have hp : ∀ c ∈ l, (c != '\n') = true := by
    intro c hc
    simp only [bne_iff_ne, ne_eq]
    rintro rfl; exact h hc
  unfold takeLine afterLine
  rw [List.takeWhile_append_of_pos hp, List.dropWhile_append_of_pos hp]
  constructor
  · rw [List.takeWhile_cons_of_neg (by simp), List.append_nil]
  · rw [List.dropWhile_cons_of_neg (by simp)]; rfl

theorem headerLoop_lines (ls : List HLine) (hls : ∀ l ∈ ls, l.Shape) (n : Nat) (hn : ls.length ≤ n) (a : Int × Str)
    (rest : Str) (hr : (rest.dropWhile isSpace).head? ≠ some '#') :
    ∃ rest', rest'.dropWhile isSpace = rest.dropWhile isSpace ∧
      headerLoop n a.1 a.2 (ls.flatMap HLine.text ++ rest) = some (ls.foldl (fun a l => l.eff a) a, rest') := by
  induction ls generalizing n a rest with
  | nil => exact ⟨rest, rfl, headerLoop_stop _ _ _ _ (head_of_ws hr)⟩
  | cons l ls ih =>
    obtain ⟨k, rfl⟩ : ∃ k, n = k + 1 := ⟨n - 1, by simp at hn; omega⟩
    have hk : ls.length ≤ k := by simpa using hn
    have hls' : ∀ l ∈ ls, l.Shape := fun x hx => hls x (by simp [hx])
    rw [List.flatMap_cons, List.foldl_cons]
    cases l with
    | ver =>
      have e : HLine.text .ver ++ List.flatMap HLine.text ls ++ rest = '#' :: '!' :: (intStr 9 ++
          '\n' :: (List.flatMap HLine.text ls ++ rest)) := by
        rw [show HLine.text .ver = '#' :: '!' :: (intStr 9 ++ ['\n']) by decide]
        simp
      rw [e, headerLoop, if_pos rfl, if_pos (List.head?_cons), List.drop_one, List.tail_cons, readInt_intStr 9 (by decide) _ (by simp [NoDigit, isDigit])]
      exact ih hls' k hk (9, a.2) rest hr
    | txt l =>
      obtain ⟨h1, h2⟩ := hls _ (by simp : HLine.txt l ∈ HLine.txt l :: ls)
      have e : HLine.text (.txt l) ++ List.flatMap HLine.text ls ++ rest = '#' :: (l ++
          '\n' :: (List.flatMap HLine.text ls ++ rest)) := by
        rw [HLine.text]; simp
      have h3 : (l ++ '\n' :: (List.flatMap HLine.text ls ++ rest)).head? ≠ some '!' := by
        cases l with
        | nil => simp
        | cons c l => simpa using h2
      rw [e, headerLoop, if_pos rfl, if_neg h3, (line_split l _ h1).1, (line_split l _ h1).2]
      cases ls with
      | nil =>
        obtain ⟨r', e1, e2⟩ := ih hls' k hk (HLine.eff (.txt l) a) (dropNl rest) (by rw [dropNl_ws]; exact hr)
        exact ⟨r', by rw [e1, dropNl_ws], e2⟩
      | cons x ls =>
        have e' : dropNl (List.flatMap HLine.text (x :: ls) ++ rest) = List.flatMap HLine.text (x :: ls) ++ rest := by
          rw [List.flatMap_cons]
          cases x with
          | ver => rfl
          | txt l => rfl
        rw [e']
        exact ih hls' k hk (HLine.eff (.txt l) a) rest hr

/-! ## The symmetry type -/

theorem mentions_iff (l : Str) : mentionsSym l = true ↔ "symtype".toList <:+: l.drop 1 := by
  unfold mentionsSym
  rw [List.any_eq_true]
  constructor
  · rintro ⟨t, ht, hp⟩
    rw [List.mem_tails] at ht
    rw [List.isPrefixOf_iff_prefix] at hp
    exact List.infix_iff_prefix_suffix.2 ⟨t, hp, ht⟩
  · intro h
    obtain ⟨t, hp, ht⟩ := List.infix_iff_prefix_suffix.1 h
    exact ⟨t, (List.mem_tails _ _).2 ht, List.isPrefixOf_iff_prefix.2 hp⟩

theorem symOf_other {l : Str} (h : ¬ "symtype".toList <:+: l) (s : Str) : symOf l s = s := by
  unfold symOf
  rw [if_neg]
  intro hm
  exact h (((mentions_iff l).1 hm).trans (List.drop_suffix 1 l).isInfix)

theorem lastWord_line (x y : Str) (c : Char) (hc : c = ' ' ∨ c = '\t') (hy : y ≠ []) (h : ∀ c ∈ y, c ≠ ' ' ∧ c ≠ '\t') :
    lastWord (x ++ (c :: y)) = some y := by
  unfold lastWord
  have e : (x ++ c :: y).reverse = y.reverse ++ (c :: x.reverse) := by simp
  have hp : ∀ d ∈ y.reverse, (!(decide (d = ' ') || decide (d = '\t'))) = true := by
    intro d hd
    have := h d (List.mem_reverse.1 hd)
    simp [this.1, this.2]
  have hn : ¬ (!(decide (c = ' ') || decide (c = '\t'))) = true := by
    rcases hc with rfl | rfl <;> decide
  rw [e, List.takeWhile_append_of_pos hp,
    List.takeWhile_cons_of_neg (p := fun a : Char => !(decide (a = ' ') || decide (a = '\t'))) hn, List.append_nil]
  dsimp only
  rw [if_neg (by simp; omega), if_neg (by simpa using hy), List.reverse_reverse]

theorem symOf_line {P : Par} {f : File} (h : f.OK P) (s : Str) : symOf f.symLine s = f.sym := by
  have hm : mentionsSym f.symLine = true := by
    rw [mentions_iff]
    unfold File.symLine
    rw [List.drop_append_of_le_length (by
      have := List.length_pos_iff.2 h.symPre.1; omega)]
    exact ⟨f.symPre.drop 1, f.symGap ++ f.sym, by simp⟩
  unfold symOf
  rw [if_pos hm]
  obtain ⟨g, c, hg, hc⟩ : ∃ g c, f.symGap = g ++ [c] ∧ (c = ' ' ∨ c = '\t') := by
    rcases List.eq_nil_or_concat f.symGap with e | ⟨g, c, e⟩
    · have := h.symGap; rw [e] at this; simp at this
    · refine ⟨g, c, by rw [e, List.concat_eq_append], ?_⟩
      have := h.symGap
      rw [e, List.concat_eq_append] at this
      simpa using this
  have e : f.symLine = (f.symPre ++ ("symtype".toList ++ g)) ++ c :: f.sym := by
    unfold File.symLine; rw [hg]; simp
  rw [e, lastWord_line _ _ _ hc h.symWord.1 h.symWord.2]

theorem shape_of_ok {l : HLine} (h : l.OK) : l.Shape := by
  cases l with
  | ver => trivial
  | txt l => exact ⟨h.1, h.2.1⟩

theorem foldl_other (ls : List HLine) (h : ∀ l ∈ ls, l.OK) (a : Int × Str) :
    (ls.foldl (fun a l => HLine.eff l a) a).2 = a.2 ∧
      (HLine.ver ∈ ls ∨ a.1 = 9 → (ls.foldl (fun a l => HLine.eff l a) a).1 = 9) := by
  induction ls generalizing a with
  | nil => simp
  | cons l ls ih =>
    rw [List.foldl_cons]
    obtain ⟨h1, h2⟩ := ih (fun x hx => h x (by simp [hx])) (HLine.eff l a)
    cases l with
    | ver => exact ⟨h1, fun _ => h2 (Or.inr rfl)⟩
    | txt t =>
      have := h (.txt t) (by simp)
      refine ⟨?_, ?_⟩
      · rw [h1]
        exact symOf_other this.2.2 _
      · intro hv
        refine h2 ?_
        rcases hv with hv | hv
        · simp at hv; exact Or.inl hv
        · exact Or.inr hv

theorem foldl_header {P : Par} {f : File} (h : f.OK P) :
    (f.before ++ (HLine.txt f.symLine :: f.after)).foldl (fun a l => HLine.eff l a) (-1, []) = (9, f.sym) := by
  rw [List.foldl_append, List.foldl_cons]
  obtain ⟨-, h2⟩ := foldl_other f.before h.before (-1, [])
  generalize f.before.foldl (fun a l => HLine.eff l a) (-1, []) = a at *
  obtain ⟨h3, h4⟩ := foldl_other f.after h.after (HLine.eff (.txt f.symLine) a)
  refine Prod.ext ?_ ?_
  · refine h4 ?_
    have := h.ver
    rw [List.mem_append] at this
    rcases this with hv | hv
    · exact Or.inr (h2 (Or.inl hv))
    · exact Or.inl hv
  · rw [h3]; exact symOf_line h _

theorem lines_len (ls : List HLine) : ls.length ≤ (ls.flatMap HLine.text).length := by
  induction ls with
  | nil => simp
  | cons l ls ih =>
    rw [List.flatMap_cons, List.length_cons, List.length_append]
    have : 1 ≤ l.text.length := by cases l <;> simp [HLine.text]
    omega

theorem digit_head (n : Nat) (s : Str) : ((natStr n ++ s).dropWhile isSpace) = natStr n ++ s ∧ (natStr n ++ s).head? ≠ some '#' := by
  obtain ⟨c, ds, hc⟩ : ∃ c ds, natStr n = c :: ds := by
    cases h : natStr n with
    | nil => exact absurd h (natStr_ne_nil n)
    | cons c ds => exact ⟨c, ds, rfl⟩
  have hd : isDigit c = true := natStr_isDigit n c (by rw [hc]; simp)
  rw [hc, List.cons_append]
  constructor
  · rw [List.dropWhile_cons_of_neg]
    rw [digit_not_space hd]; simp
  · simp only [List.head?_cons, ne_eq, Option.some.injEq]
    rintro rfl
    revert hd; decide

theorem reads_header {P : Par} {f : File} (h : f.OK P) : Reads readHeader f.headText f.val.header := by
  intro rest hrest
  have e : f.headText ++ rest = (f.before ++ (HLine.txt f.symLine :: f.after)).flatMap HLine.text ++
      (f.ws ++ (natStr f.channels ++ (natText f.Nmax ++ (natText f.nsubs ++ rest)))) := by
    unfold File.headText; simp
  have hsh : ∀ l ∈ f.before ++ (HLine.txt f.symLine :: f.after), l.Shape := by
    intro l hl
    rw [List.mem_append, List.mem_cons] at hl
    rcases hl with hl | rfl | hl
    · exact shape_of_ok (h.before l hl)
    · refine ⟨h.symNl, ?_⟩
      unfold File.symLine
      cases hp : f.symPre with
      | nil => exact absurd hp h.symPre.1
      | cons c s => have := h.symPre.2; rw [hp] at this; simpa using this
    · exact shape_of_ok (h.after l hl)
  have hd := digit_head f.channels (natText f.Nmax ++ (natText f.nsubs ++ rest))
  have hws : (f.ws ++ (natStr f.channels ++ (natText f.Nmax ++ (natText f.nsubs ++ rest)))).dropWhile isSpace =
      natStr f.channels ++ (natText f.Nmax ++ (natText f.nsubs ++ rest)) := by
    rw [dropWhile_blank h.ws, hd.1]
  rw [e]
  unfold readHeader
  obtain ⟨r', e1, e2⟩ := headerLoop_lines _ hsh ((f.before ++ (HLine.txt f.symLine :: f.after)).flatMap HLine.text ++
      (f.ws ++ (natStr f.channels ++ (natText f.Nmax ++ (natText f.nsubs ++ rest))))).length
      (le_trans (lines_len _) (by simp)) (-1, []) _ (by rw [hws]; exact hd.2)
  unfold seq
  rw [e2, foldl_header h]
  dsimp only
  rw [if_pos rfl]
  have hc : readNat r' = some (f.channels, natText f.Nmax ++ (natText f.nsubs ++ rest)) := by
    rw [ins_readNat, e1, hws, reads_nat' _ h.channels.2]
    exact sep_noDigit (sep_nat f.Nmax h.Nmax _).1
  rw [hc]
  dsimp only
  rw [reads_nat f.Nmax h.Nmax _ (sep_nat f.nsubs h.nsubs _).1]
  dsimp only
  rw [reads_nat f.nsubs h.nsubs _ hrest]
  rfl

/-! ## Truncated headers -/

theorem readInt_length {s r : Str} {v : Int} (h : readInt s = some (v, r)) : r.length ≤ s.length := by
  unfold readInt at h
  dsimp only at h
  have h0 : (readSign (s.dropWhile isSpace)).2.length ≤ s.length := by
    have h1 := (List.dropWhile_suffix isSpace (l := s)).length_le
    generalize s.dropWhile isSpace = t at *
    refine le_trans ?_ h1
    unfold readSign
    split <;> simp
  split at h
  · exact absurd h (by simp)
  · have key : ∀ (c : Prop) [Decidable c] (x : Int), (if c then some (x, (readSign (s.dropWhile isSpace)).2.dropWhile isDigit)
        else none) = some (v, r) → r.length ≤ s.length := by
      intro c _ x hx
      by_cases hc : c
      · rw [if_pos hc] at hx
        simp only [Option.some.injEq, Prod.mk.injEq] at hx
        rw [← hx.2]
        exact le_trans (List.dropWhile_suffix isDigit).length_le h0
      · rw [if_neg hc] at hx; exact absurd hx (by simp)
    exact key _ _ h

theorem dropNl_append {s : Str} (h : s ≠ []) (t : Str) : dropNl (s ++ t) = dropNl s ++ t := by
  cases s with
  | nil => exact absurd rfl h
  | cons c s =>
    rw [List.cons_append, dropNl, dropNl]
    by_cases hc : c = '\n'
    · rw [if_pos hc, if_pos hc]
    · rw [if_neg hc, if_neg hc]; rfl

theorem dropNl_length (s : Str) : (dropNl s).length ≤ s.length := by
  cases s with
  | nil => simp [dropNl]
  | cons c s =>
    rw [dropNl]
    by_cases hc : c = '\n'
    · rw [if_pos hc]; simp
    · rw [if_neg hc]

theorem headerLoop_nil {n : Nat} {v : Int} {s : Str} {x : Int × Str} {r : Str} (h : headerLoop n v s [] = some (x, r)) : r = [] := by
  cases n <;> simp [headerLoop] at h <;> exact h.2

theorem headerLoop_stable (n m : Nat) (v : Int) (s p t : Str) (x : Int × Str) (r : Str) (hp : p.length ≤ n) (hm : n ≤ m)
    (h : headerLoop n v s p = some (x, r)) (hr : r ≠ []) : headerLoop m v s (p ++ t) = some (x, r ++ t) := by
  induction n generalizing m v s p with
  | zero =>
    have : p = [] := List.length_eq_zero_iff.1 (by omega)
    subst this
    exact absurd (headerLoop_nil h) hr
  | succ n ih =>
    obtain ⟨m, rfl⟩ : ∃ k, m = k + 1 := ⟨m - 1, by omega⟩
    cases p with
    | nil => exact absurd (headerLoop_nil h) hr
    | cons c p =>
      rw [List.cons_append]
      rw [headerLoop] at h ⊢
      simp only [List.length_cons] at hp
      by_cases hc : c = '#'
      · rw [if_pos hc] at h ⊢
        by_cases h1 : p.head? = some '!'
        · have h1' : (p ++ t).head? = some '!' := by
            cases p with
            | nil => simp at h1
            | cons d p => simpa using h1
          rw [if_pos h1] at h
          rw [if_pos h1']
          have hd : (p ++ t).drop 1 = p.drop 1 ++ t := by
            cases p with
            | nil => simp at h1
            | cons d p => rfl
          rw [hd]
          cases hi : readInt (p.drop 1) with
          | none => rw [hi] at h; exact absurd h (by simp)
          | some q =>
            obtain ⟨v', r1⟩ := q
            rw [hi] at h
            dsimp only at h
            have hr1 : r1 ≠ [] := by
              rintro rfl
              exact hr (headerLoop_nil h)
            rw [nice_readInt.stable _ v' r1 hr1 hi t]
            dsimp only
            rw [dropNl_append hr1]
            refine ih m v' s (dropNl r1) ?_ (by omega) h
            have := readInt_length hi
            have := dropNl_length r1
            simp only [List.length_drop] at *
            omega
        · rw [if_neg h1] at h
          have h2 : afterLine p ≠ [] := by
            intro e
            rw [e] at h
            exact hr (headerLoop_nil h)
          have h1' : (p ++ t).head? ≠ some '!' := by
            cases p with
            | nil => exact absurd rfl h2
            | cons d p => simpa using h1
          rw [if_neg h1', (afterLine_stable h2 t).1, (afterLine_stable h2 t).2, dropNl_append h2]
          refine ih m v _ _ ?_ (by omega) h
          have := afterLine_length p
          have := dropNl_length (afterLine p)
          omega
      · rw [if_neg hc] at h ⊢
        simp only [Option.some.injEq, Prod.mk.injEq] at h ⊢
        exact ⟨h.1, by rw [← h.2]; rfl⟩

theorem nice_header : Nice readHeader := by
  have hg : ∀ vs : Int × Str, Nice (if vs.1 = 9 then
      seq readNat fun ch => seq readNat fun nm => seq readNat fun ns => ret (⟨vs.2, ch, nm, ns⟩ : Header)
    else fun _ => none) := by
    intro vs
    by_cases h : vs.1 = 9
    · rw [if_pos h]
      exact nice_readNat.seq fun _ => nice_readNat.seq fun _ => nice_readNat.seq fun _ => Nice.ret _
    · rw [if_neg h]; exact Nice.fail
  constructor
  · intro p a r hr h t
    unfold readHeader seq at h ⊢
    cases hl : headerLoop p.length (-1) [] p with
    | none => rw [hl] at h; exact absurd h (by simp)
    | some q =>
      obtain ⟨x, r1⟩ := q
      rw [hl] at h
      have hr1 : r1 ≠ [] := by
        rintro rfl
        exact hr ((hg x).nil a r h)
      rw [headerLoop_stable p.length (p ++ t).length (-1) [] p t x r1 (le_refl _) (by simp) hl hr1]
      exact (hg x).stable _ a r hr h t
  · intro a r h
    unfold readHeader DataFile.seq at h
    rw [List.length_nil, headerLoop] at h
    exact (hg _).nil a r h

end Verif.DataFile
