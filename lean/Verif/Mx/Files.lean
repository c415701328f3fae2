import Verif.Mx.Lemmas
/-!
# C105: matrix files
-/

namespace Verif.Mx
open Verif.Text
open Verif.DataFile

variable {K : Type}

theorem toks_length {F : Fmt K} {ls : List Line} {m : List (List K)} (hm : contents F ls = some m) {c : Nat} (hc : ∀ r ∈ m, r.length = c) :
    ∀ l ∈ ls, ∀ r, l.toks = some r → r.length = c := by
  intro l hl r hr
  have hmem : r ∈ ls.filterMap Line.toks := List.mem_filterMap.mpr ⟨l, hl, hr⟩
  unfold contents at hm
  have h2 := Verif.NrgChain.mapM_forall hm
  clear hm hr hl
  generalize ls.filterMap Line.toks = k at hmem h2
  induction h2 with
  | nil => simp at hmem
  | @cons a b la lb hab _ ih =>
    rcases List.mem_cons.mp hmem with e | e
    · rw [e, ← mapM_length hab]
      exact hc b (by simp)
    · exact ih (fun r hr => hc r (by simp [hr])) e

/-- A matrix in a text file is read in every layout: any white space between the numbers, blank lines and comments anywhere, with or
without an end of line after the last row. -/
theorem readText_layout (F : Fmt K) (ls : List Line) (h : ∀ l ∈ ls, l.OK) (c : Nat) (m : List (List K))
    (hm : contents F ls = some m) (hc : Rect c m) : readText F (fileOf ls) = .ok ⟨m.length, c, m⟩ := by
  have htl := toks_length hm hc.1
  have hr : ∀ l ∈ ls.filter isRow, l.OK ∧ isRow l = true := fun l hl => ⟨h l (List.mem_filter.mp hl).1, (List.mem_filter.mp hl).2⟩
  have hw : ∀ s ∈ (ls.filter isRow).map Line.text, words s = c := by
    intro s hs
    obtain ⟨l, hl, rfl⟩ := List.mem_map.mp hs
    obtain ⟨h1, h2⟩ := hr l hl
    cases l with
    | other s => simp [isRow] at h2
    | row x t trail =>
      rw [words_row h1]
      exact htl _ (List.mem_filter.mp hl).1 (x :: t) rfl
  have hlen : m.length = (ls.filter isRow).length := contents_length F ls m hm
  have hd := dims_same _ c hw 0 0 (Or.inr rfl)
  rw [List.length_map, ← hlen, Nat.zero_add] at hd
  have hif : (if (ls.filter isRow).map Line.text = [] then 0 else c) = c := by
    split
    · rename_i he
      have : m = [] := List.length_eq_zero_iff.mp (by rw [hlen, List.map_eq_nil_iff.mp he]; rfl)
      exact (hc.2 this).symm
    · rfl
  rw [hif] at hd
  obtain ⟨post, hp⟩ := readN_rows F (ls.filter isRow) hr c (fun l hl => htl l (List.mem_filter.mp hl).1) blank_nil m
    (by rw [contents_filter]; exact hm)
  rw [readText, used_fileOf ls h, hd]
  dsimp only
  rw [List.nil_append, ← hlen] at hp
  rw [List.flatMap_map, hp]

/-- A number out of range is refused. -/
theorem readText_range (F : Fmt K) (ls : List Line) (h : ∀ l ∈ ls, l.OK) (c : Nat)
    (hc : ∀ l ∈ ls, ∀ r, l.toks = some r → r.length = c) (hm : contents F ls = none) : readText F (fileOf ls) = .error .corrupt := by
  have hr : ∀ l ∈ ls.filter isRow, l.OK ∧ isRow l = true := fun l hl => ⟨h l (List.mem_filter.mp hl).1, (List.mem_filter.mp hl).2⟩
  have hw : ∀ s ∈ (ls.filter isRow).map Line.text, words s = c := by
    intro s hs
    obtain ⟨l, hl, rfl⟩ := List.mem_map.mp hs
    obtain ⟨h1, h2⟩ := hr l hl
    cases l with
    | other s => simp [isRow] at h2
    | row x t trail =>
      rw [words_row h1]
      exact hc _ (List.mem_filter.mp hl).1 (x :: t) rfl
  have hd := dims_same _ c hw 0 0 (Or.inr rfl)
  have hne : (ls.filter isRow).map Line.text ≠ [] := by
    intro he
    rw [← contents_filter, List.map_eq_nil_iff.mp he] at hm
    simp [contents] at hm
  rw [List.length_map, Nat.zero_add, if_neg hne] at hd
  have hp := readN_rows_none F (ls.filter isRow) hr c (fun l hl => hc l (List.mem_filter.mp hl).1) blank_nil
    (by rw [contents_filter]; exact hm)
  rw [readText, used_fileOf ls h, hd]
  dsimp only
  rw [List.nil_append] at hp
  rw [List.flatMap_map, hp]

/-- Whatever is in the file: lines with different numbers of words are refused. -/
theorem readText_ragged (F : Fmt K) (s a b : Str) (ha : a ∈ used s) (hb : b ∈ used s) (hne : words a ≠ words b) :
    readText F s = .error .ragged := by
  rw [readText, dims_ragged (used s) _ 0 0 (Or.inr ⟨a, ha, b, hb, hne⟩)]
  intro t ht
  have := (List.mem_filter.mp ht).2
  exact words_pos (by simpa using this)

/-- Whatever is in the file: a matrix that was read has as many rows as there are lines that are not blank or a comment, and as
many columns as there are words in each of them. -/
theorem readText_sizes (F : Fmt K) (s : Str) (t : Tab K) (h : readText F s = .ok t) :
    t.r = (used s).length ∧ t.rows.length = t.r ∧ (∀ r ∈ t.rows, r.length = t.c) ∧ ∀ l ∈ used s, words l = t.c := by
  have hrd : ∀ (n : Nat) {α : Type} (f : Rd α) (s : Str) l r, readN f n s = some (l, r) → l.length = n := by
    intro n
    induction n with
    | zero => intro α f s l r h; simp [readN] at h; simp [← h.1]
    | succ n ih =>
      intro α f s l r h
      cases hf : f s with
      | none => rw [readN_fail hf] at h; simp at h
      | some p =>
        rw [readN_step (a := p.1) (r := p.2) hf] at h
        cases hn : readN f n p.2 with
        | none => rw [hn] at h; simp at h
        | some q =>
          rw [hn] at h
          simp only [Option.some.injEq, Prod.mk.injEq] at h
          rw [← h.1, List.length_cons, ih f p.2 q.1 q.2 hn]
  have hall : ∀ (n : Nat) {α : Type} (f : Rd α) (P : α → Prop), (∀ s a r, f s = some (a, r) → P a) → ∀ (s : Str) l r,
      readN f n s = some (l, r) → ∀ a ∈ l, P a := by
    intro n
    induction n with
    | zero => intro α f P hP s l r h a ha; simp [readN] at h; rw [h.1] at ha; simp at ha
    | succ n ih =>
      intro α f P hP s l r h
      cases hf : f s with
      | none => rw [readN_fail hf] at h; simp at h
      | some p =>
        rw [readN_step (a := p.1) (r := p.2) hf] at h
        cases hn : readN f n p.2 with
        | none => rw [hn] at h; simp at h
        | some q =>
          rw [hn] at h
          simp only [Option.some.injEq, Prod.mk.injEq] at h
          rw [← h.1]
          intro a ha
          rcases List.mem_cons.mp ha with e | e
          · rw [e]; exact hP s p.1 p.2 hf
          · exact ih f P hP p.2 q.1 q.2 hn a e
  have hsame : ∀ a ∈ used s, ∀ b ∈ used s, words a = words b := by
    intro a ha b hb
    by_contra hne
    rw [readText_ragged F s a b ha hb hne] at h
    simp at h
  by_cases hne : used s = []
  · rw [readText, hne] at h
    simp only [dimsLoop, readN, Except.ok.injEq] at h
    subst h
    simp [hne]
  · obtain ⟨a, l, e⟩ := List.exists_cons_of_ne_nil hne
    have hw : ∀ b ∈ used s, words b = words a := fun b hb => hsame b hb a (by simp [e])
    have hd := dims_same _ (words a) hw 0 0 (Or.inr rfl)
    rw [if_neg hne, Nat.zero_add] at hd
    rw [readText, hd] at h
    dsimp only at h
    cases hn : readN (readN (readOne F) (words a)) (used s).length ((used s).flatMap fun l => l ++ ['\n']) with
    | none => rw [hn] at h; simp at h
    | some q =>
      rw [hn] at h
      simp only [Except.ok.injEq] at h
      subst h
      refine ⟨rfl, hrd _ _ _ q.1 q.2 hn, ?_, hw⟩
      exact hall _ _ (fun r => r.length = words a) (fun s a r h => hrd _ _ s a r h) _ q.1 q.2 hn

/-! ## Written files -/

theorem fileOf_nl (ls : List Line) : fileOf (ls ++ [.other []]) = ls.flatMap fun l => l.text ++ ['\n'] := by
  cases ls with
  | nil => rfl
  | cons l ls =>
    have key : ∀ ls : List Line, ((ls ++ [Line.other []]).flatMap fun l => '\n' :: l.text) = '\n' :: ls.flatMap fun l => l.text ++ ['\n'] := by
      intro ls
      induction ls with
      | nil => rfl
      | cons l ls ih => rw [List.cons_append, List.flatMap_cons, ih]; simp
    rw [List.cons_append, fileOf, key]
    simp

theorem row_line (F : Fmt K) (r : List K) (hne : r ≠ []) (hr : ∀ x ∈ r, F.rep x) :
    ∃ x l, (Line.row x l []).OK ∧ rowText F r = (Line.row x l []).text ∧ (x :: l).mapM (fun t => F.num t.v.val) = some r := by
  have key : ∀ r : List K, (∀ x ∈ r, F.rep x) → ∃ l : List (Tok Lit), (∀ t ∈ l, TokOK t) ∧
      l.flatMap numText = (r.flatMap fun x => ' ' :: F.put x) ∧ l.mapM (fun t => F.num t.v.val) = some r := by
    intro r
    induction r with
    | nil => intro _; exact ⟨[], by simp, rfl, rfl⟩
    | cons x r ih =>
      intro hr
      obtain ⟨l, h1, h2, h3⟩ := ih fun y hy => hr y (by simp [hy])
      obtain ⟨q, q1, q2, q3⟩ := F.put_lit x (hr x (by simp))
      refine ⟨⟨[' '], q⟩ :: l, ?_, ?_, ?_⟩
      · intro t ht
        rcases List.mem_cons.mp ht with e | e
        · subst e
          exact ⟨by simp, by simp [InLine]; decide, q1⟩
        · exact h1 t e
      · rw [List.flatMap_cons, List.flatMap_cons, h2, numText, q2]
        rfl
      · rw [List.mapM_cons, h3]
        simp [q3]
  have ht : ∀ (r : List K) x, rowText F (x :: r) = F.put x ++ r.flatMap fun x => ' ' :: F.put x := by
    intro r
    induction r with
    | nil => intro x; simp [rowText]
    | cons y r ih =>
      intro x
      have e : rowText F (x :: y :: r) = F.put x ++ ' ' :: rowText F (y :: r) := rfl
      rw [e, ih y]; simp
  cases r with
  | nil => exact absurd rfl hne
  | cons x r =>
    obtain ⟨l, h1, h2, h3⟩ := key r fun y hy => hr y (by simp [hy])
    obtain ⟨q, q1, q2, q3⟩ := F.put_lit x (hr x (by simp))
    refine ⟨⟨[], q⟩, l, ⟨by simp [InLine], q1, h1, by simp [InLine]⟩, ?_, ?_⟩
    · rw [ht, Line.text, h2, numText, q2]
      simp
    · rw [List.mapM_cons, h3]
      simp [q3]

theorem mat_lines (F : Fmt K) (m : List (List K)) (hm : ∀ r ∈ m, r ≠ [] ∧ ∀ x ∈ r, F.rep x) :
    ∃ ls : List Line, (∀ l ∈ ls, l.OK ∧ l.NoComment) ∧ matText F m = fileOf ls ∧ contents F ls = some m := by
  suffices h : ∃ ls : List Line, (∀ l ∈ ls, l.OK ∧ l.NoComment) ∧ matText F m = (ls.flatMap fun l => l.text ++ ['\n']) ∧ contents F ls = some m by
    obtain ⟨ls, h1, h2, h3⟩ := h
    refine ⟨ls ++ [.other []], ?_, by rw [fileOf_nl, h2], ?_⟩
    · intro l hl
      rcases List.mem_append.mp hl with h | h
      · exact h1 l h
      · rw [List.mem_singleton.mp h]
        exact ⟨⟨rfl, by simp⟩, by simp [Line.NoComment, InLine]⟩
    · rw [contents] at h3 ⊢
      rw [List.filterMap_append, show List.filterMap Line.toks [Line.other []] = [] from rfl, List.append_nil]
      exact h3
  induction m with
  | nil => exact ⟨[], by simp, rfl, rfl⟩
  | cons r m ih =>
    obtain ⟨ls, h1, h2, h3⟩ := ih fun r hr => hm r (by simp [hr])
    obtain ⟨x, l, g1, g2, g3⟩ := row_line F r (hm r (by simp)).1 (hm r (by simp)).2
    refine ⟨.row x l [] :: ls, ?_, ?_, ?_⟩
    · intro k hk
      rcases List.mem_cons.mp hk with e | e
      · rw [e]; exact ⟨g1, trivial⟩
      · exact h1 k e
    · rw [matText] at h2 ⊢
      rw [List.flatMap_cons, h2, g2, List.flatMap_cons]
    · rw [contents] at h3 ⊢
      rw [List.filterMap_cons_some (show Line.toks (.row x l []) = some (x :: l) from rfl), List.mapM_cons, g3]
      simp [h3]

/-- What was written as text is read as the same matrix. -/
theorem matText_read (F : Fmt K) (c : Nat) (m : List (List K)) (hc : 0 < c) (hr : ∀ r ∈ m, r.length = c ∧ ∀ x ∈ r, F.rep x) :
    readText F (matText F m) = .ok ⟨m.length, if m = [] then 0 else c, m⟩ := by
  obtain ⟨ls, h1, h2, h3⟩ := mat_lines F m fun r h => ⟨fun e => by have := (hr r h).1; rw [e] at this; simp at this; omega, (hr r h).2⟩
  rw [h2]
  refine readText_layout F ls (fun l hl => (h1 l hl).1) _ m h3 ⟨?_, ?_⟩
  · intro r h
    rw [if_neg (List.ne_nil_of_mem h)]
    exact (hr r h).1
  · intro e
    rw [if_pos e]

/-! ## Binary files -/

theorem u32_len (n : Nat) : (u32 n).length = 4 := rfl

theorem toNat_byte (n : Nat) (h : n < 256) : (Char.ofNat n).toNat = n := by
  have hv : n.isValidChar := Or.inl (by omega)
  rw [Char.ofNat, dif_pos hv]
  rfl

theorem readU32_u32 (n : Nat) (h : n < 2 ^ 32) (s : Str) : readU32 (u32 n ++ s) = some (n, s) := by
  simp only [u32, List.cons_append, List.nil_append, readU32]
  rw [toNat_byte _ (by omega), toNat_byte _ (by omega), toNat_byte _ (by omega), toNat_byte _ (by omega)]
  simp only [Option.some.injEq, Prod.mk.injEq, and_true]
  omega

theorem readDouble_enc (F : Fmt K) (x : K) (hx : F.rep x) (s : Str) : readDouble F (F.enc x ++ s) = some (x, s) := by
  have hl := F.enc_len x
  rw [readDouble, if_neg (by rw [List.length_append]; omega), List.take_append_of_le_length (by omega), List.take_of_length_le (by omega),
    F.dec_enc x hx, List.drop_append_of_le_length (by omega), List.drop_of_length_le (by omega)]
  rfl

theorem readN_enc (F : Fmt K) (r : List K) (hr : ∀ x ∈ r, F.rep x) (s : Str) :
    readN (readDouble F) r.length (r.flatMap F.enc ++ s) = some (r, s) := by
  induction r with
  | nil => rfl
  | cons x r ih =>
    rw [List.length_cons, List.flatMap_cons, List.append_assoc, readN_step (readDouble_enc F x (hr x (by simp)) _),
      ih fun y hy => hr y (by simp [hy])]

theorem readN_encs (F : Fmt K) (c : Nat) (m : List (List K)) (hr : ∀ r ∈ m, r.length = c ∧ ∀ x ∈ r, F.rep x) (s : Str) :
    readN (readN (readDouble F) c) m.length ((m.flatMap fun r => r.flatMap F.enc) ++ s) = some (m, s) := by
  induction m with
  | nil => rfl
  | cons r m ih =>
    have h := readN_enc F r (hr r (by simp)).2 ((m.flatMap fun r => r.flatMap F.enc) ++ s)
    rw [(hr r (by simp)).1] at h
    rw [List.length_cons, List.flatMap_cons, List.append_assoc, readN_step h, ih fun y hy => hr y (by simp [hy])]

/-- The bytes of a matrix in a binary file. -/
def binText (F : Fmt K) (c : Nat) (m : List (List K)) : Str := u32 m.length ++ (u32 c ++ m.flatMap fun r => r.flatMap F.enc)

/-- A matrix in a binary file is read; what follows is ignored. -/
theorem readBin_read (F : Fmt K) (c : Nat) (m : List (List K)) (h1 : m.length < 2 ^ 32) (h2 : c < 2 ^ 32)
    (hr : ∀ r ∈ m, r.length = c ∧ ∀ x ∈ r, F.rep x) (s : Str) : readBin F (binText F c m ++ s) = .ok ⟨m.length, c, m⟩ := by
  rw [readBin, binText, List.append_assoc, readU32_u32 _ h1]
  dsimp only
  rw [List.append_assoc, readU32_u32 _ h2]
  dsimp only
  rw [readN_encs F c m hr s]

theorem readN_short {α : Type} (f : Rd α) (k : Nat) (hf : ∀ s a r, f s = some (a, r) → k + r.length = s.length) (n : Nat) (s : Str)
    (l : List α) (r : Str) (h : readN f n s = some (l, r)) : n * k + r.length = s.length := by
  induction n generalizing s l with
  | zero => simp [readN] at h; simp [h.2]
  | succ n ih =>
    cases hx : f s with
    | none => rw [readN_fail hx] at h; simp at h
    | some p =>
      rw [readN_step (a := p.1) (r := p.2) hx] at h
      cases hn : readN f n p.2 with
      | none => rw [hn] at h; simp at h
      | some q =>
        rw [hn] at h
        simp only [Option.some.injEq, Prod.mk.injEq] at h
        have a1 := hf s p.1 p.2 hx
        have a2 := ih p.2 q.1 (by rw [hn, ← h.2])
        rw [Nat.add_mul]
        omega

theorem readU32_cut {p w : Str} (hp : p <+: w) (h4 : 4 ≤ p.length) :
    (∃ n, readU32 p = some (n, p.drop 4)) ∧ (readU32 p).map Prod.fst = (readU32 w).map Prod.fst := by
  obtain ⟨t, rfl⟩ := hp
  match p, h4 with
  | a :: b :: c :: d :: p, _ => exact ⟨⟨_, rfl⟩, rfl⟩

/-- A binary file from which bytes are missing at the end is refused. -/
theorem readBin_cut (F : Fmt K) (c : Nat) (m : List (List K)) (h1 : m.length < 2 ^ 32) (h2 : c < 2 ^ 32)
    (hr : ∀ r ∈ m, r.length = c) (p : Str) (hp : p <+: binText F c m) (hne : p ≠ binText F c m) :
    readBin F p = .error .corrupt := by
  have hlt : p.length < (binText F c m).length := by
    rcases Nat.lt_or_ge p.length (binText F c m).length with h | h
    · exact h
    · exact absurd (hp.eq_of_length_le h) hne
  have hfm : ∀ m : List (List K), (∀ r ∈ m, r.length = c) → (m.flatMap fun r => r.flatMap F.enc).length = m.length * (c * 8) := by
    intro m hr
    induction m with
    | nil => simp
    | cons r m ih =>
      have e : ∀ r : List K, (r.flatMap F.enc).length = r.length * 8 := by
        intro r
        induction r with
        | nil => rfl
        | cons x r ih => rw [List.flatMap_cons, List.length_append, F.enc_len, ih, List.length_cons]; omega
      rw [List.flatMap_cons, List.length_append, e, hr r (by simp), ih fun y hy => hr y (by simp [hy]), List.length_cons, Nat.add_mul]
      omega
  have hlen : (binText F c m).length = 8 + m.length * (c * 8) := by
    rw [binText, List.length_append, List.length_append, u32_len, u32_len, hfm m hr]; omega
  have short : ∀ q : Str, q.length < 4 → readU32 q = none := by
    intro q hq
    match q with
    | [] => rfl
    | [_] => rfl
    | [_, _] => rfl
    | [_, _, _] => rfl
    | _ :: _ :: _ :: _ :: _ => simp at hq; omega
  unfold readBin
  by_cases h4 : p.length < 4
  · rw [short p h4]
  obtain ⟨⟨n1, e1⟩, g1⟩ := readU32_cut hp (by omega)
  rw [binText, readU32_u32 _ h1, e1] at g1
  simp only [Option.map_some, Option.some.injEq] at g1
  subst g1
  rw [e1]
  dsimp only
  have hp2 : p.drop 4 <+: u32 c ++ m.flatMap fun r => r.flatMap F.enc := by
    have := hp.drop 4
    rw [binText] at this
    exact this
  by_cases h8 : (p.drop 4).length < 4
  · rw [short _ h8]
  obtain ⟨⟨n2, e2⟩, g2⟩ := readU32_cut hp2 (by omega)
  rw [readU32_u32 _ h2, e2] at g2
  simp only [Option.map_some, Option.some.injEq] at g2
  subst g2
  rw [e2]
  dsimp only
  cases hn : readN (readN (readDouble F) n2) m.length ((p.drop 4).drop 4) with
  | none => rfl
  | some q =>
    exfalso
    have hd : ∀ s a r, readDouble F s = some (a, r) → 8 + r.length = s.length := by
      intro s a r h
      rw [readDouble] at h
      split at h
      · simp at h
      · cases hx : F.dec (s.take 8) with
        | none => rw [hx] at h; simp at h
        | some x =>
          rw [hx] at h
          simp only [Option.map_some, Option.some.injEq, Prod.mk.injEq] at h
          rw [← h.2, List.length_drop]
          omega
    have := readN_short _ (n2 * 8) (fun s a r h => readN_short _ 8 hd n2 s a r h) m.length _ q.1 q.2 hn
    rw [List.length_drop, List.length_drop] at this
    rw [List.length_drop] at h8
    omega

end Verif.Mx
