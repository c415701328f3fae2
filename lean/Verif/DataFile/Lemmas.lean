import Verif.DataFile.Spec
import Verif.Text.Lemmas
import Mathlib.Data.List.Infix
/-! # Lemmas on readers -/

namespace Verif.DataFile

open Verif.Text
open Verif.Invar (Label)

/-! ## Prefixes -/

/-- The text is empty or begins with white space. -/
def Sep (s : Str) : Prop := ∀ c ∈ s.head?, isSpace c = true

theorem sep_nil : Sep [] := by simp [Sep]

theorem sep_append {a b : Str} (ha : a ≠ [] → Sep a) (hb : Sep b) : Sep (a ++ b) := by
  cases a with
  | nil => exact hb
  | cons c a => have := ha (by simp); simpa [Sep] using this

theorem sep_cons {c : Char} {s : Str} (h : isSpace c = true) : Sep (c :: s) := by simpa [Sep] using h

theorem sep_prefix {p w : Str} (h : Sep w) (hp : p <+: w) : Sep p := by
  obtain ⟨t, rfl⟩ := hp
  cases p with
  | nil => exact sep_nil
  | cons c p => simpa [Sep] using h

theorem sep_blank {w : Str} (h : Blank w) : Sep w := by
  cases w with
  | nil => exact sep_nil
  | cons c w => exact sep_cons (h c (by simp))

theorem sep_ws {w s : Str} (h : Blank w) (hn : w ≠ []) : Sep (w ++ s) := by
  cases w with
  | nil => exact absurd rfl hn
  | cons c w => exact sep_cons (h c (by simp))

theorem nl_sep {s : Str} (h : Nl s) : Sep s := by
  rcases h with h | rfl
  · intro c hc
    rw [h] at hc
    simp at hc
    subst hc; decide
  · exact sep_nil

theorem sep_flatMap {α : Type} (f : α → Str) (l : List α) (h : ∀ a ∈ l, Sep (f a) ∧ f a ≠ []) : Sep (l.flatMap f) := by
  cases l with
  | nil => exact sep_nil
  | cons a l =>
    rw [List.flatMap_cons]
    obtain ⟨h1, h2⟩ := h a (by simp)
    cases hf : f a with
    | nil => exact absurd hf h2
    | cons c w => rw [hf] at h1; simpa [Sep] using h1

theorem sep_noDigit {s : Str} (h : Sep s) : NoDigit s := by
  intro c hc
  have := h c hc
  by_contra hd
  rw [digit_not_space (by simpa using hd)] at this
  exact absurd this (by simp)

theorem prefix_append_cases {p w u : Str} (h : p <+: w ++ u) :
    (p <+: w ∧ p ≠ w) ∨ ∃ p', p = w ++ p' ∧ p' <+: u := by
  obtain ⟨t, ht⟩ := h
  rcases List.append_eq_append_iff.1 ht with ⟨z, h1, h2⟩ | ⟨z, h1, h2⟩
  · cases z with
    | nil => right; exact ⟨[], by simpa using h1.symm, List.nil_prefix⟩
    | cons c z => left; exact ⟨⟨c :: z, h1.symm⟩, by rintro rfl; simp at h1⟩
  · right; exact ⟨z, h1, ⟨t, h2.symm⟩⟩

/-! ## takeWhile and dropWhile -/

theorem dropWhile_stable {q : Char → Bool} {p : Str} (h : p.dropWhile q ≠ []) (t : Str) :
    (p ++ t).dropWhile q = p.dropWhile q ++ t ∧ (p ++ t).takeWhile q = p.takeWhile q := by
  induction p with
  | nil => exact absurd rfl h
  | cons c p ih =>
    by_cases hc : q c = true
    · rw [List.dropWhile_cons_of_pos hc] at h
      obtain ⟨h1, h2⟩ := ih h
      rw [List.cons_append, List.dropWhile_cons_of_pos hc, List.takeWhile_cons_of_pos hc, h1, h2,
        List.dropWhile_cons_of_pos hc, List.takeWhile_cons_of_pos hc]
      exact ⟨rfl, rfl⟩
    · rw [List.cons_append, List.dropWhile_cons_of_neg hc, List.takeWhile_cons_of_neg hc,
        List.dropWhile_cons_of_neg hc, List.takeWhile_cons_of_neg hc]
      exact ⟨rfl, rfl⟩

theorem dropWhile_idem (q : Char → Bool) (s : Str) : (s.dropWhile q).dropWhile q = s.dropWhile q := by
  induction s with
  | nil => rfl
  | cons c s ih =>
    by_cases hc : q c = true
    · rw [List.dropWhile_cons_of_pos hc, ih]
    · rw [List.dropWhile_cons_of_neg hc, List.dropWhile_cons_of_neg hc]

theorem dropWhile_blank {ws : Str} (h : Blank ws) (s : Str) :
    (ws ++ s).dropWhile isSpace = s.dropWhile isSpace := by
  induction ws with
  | nil => rfl
  | cons c ws ih =>
    rw [List.cons_append, List.dropWhile_cons_of_pos (h c (by simp)), ih fun d hd => h d (by simp [hd])]

theorem readSign_stable {p : Str} (h : (readSign p).2 ≠ []) (t : Str) :
    readSign (p ++ t) = ((readSign p).1, (readSign p).2 ++ t) := by
  cases p with
  | nil => simp [readSign] at h
  | cons c p =>
    by_cases h1 : c = '-'
    · subst h1; rfl
    · by_cases h2 : c = '+'
      · subst h2; rfl
      · rw [List.cons_append]
        unfold readSign
        split
        · rename_i heq; simp at heq; exact absurd heq.1 h1
        · rename_i heq; simp at heq; exact absurd heq.1 h2
        · split
          · rename_i heq; simp at heq; exact absurd heq.1 h1
          · rename_i heq; simp at heq; exact absurd heq.1 h2
          · rfl

theorem readSign_nil : readSign [] = (false, []) := rfl

/-! ## Readers that do not look ahead -/

/-- A reader that leaves something unread does the same on a longer stream; on the
empty stream it leaves nothing. -/
structure Nice {α : Type} (f : Rd α) : Prop where
  stable : ∀ p a r, r ≠ [] → f p = some (a, r) → ∀ t, f (p ++ t) = some (a, r ++ t)
  nil : ∀ a r, f [] = some (a, r) → r = []

/-- Leading white space is ignored. -/
def Ins {α : Type} (f : Rd α) : Prop := ∀ s, f s = f (s.dropWhile isSpace)

/-- The reader turns the text `w` into `a` and leaves what follows. -/
def Reads {α : Type} (f : Rd α) (w : Str) (a : α) : Prop := ∀ rest, Sep rest → f (w ++ rest) = some (a, rest)

/-- The reader fails on all prefixes of `u`. -/
def Cut {α : Type} (f : Rd α) (u : Str) : Prop := ∀ p, p <+: u → f p = none

theorem Nice.seq {α β : Type} {f : Rd α} {g : α → Rd β} (hf : Nice f) (hg : ∀ a, Nice (g a)) : Nice (seq f g) := by
  constructor
  · intro p b r hr h t
    unfold DataFile.seq at h ⊢
    cases hfp : f p with
    | none => rw [hfp] at h; exact absurd h (by simp)
    | some ar =>
      obtain ⟨a, r1⟩ := ar
      rw [hfp] at h
      dsimp only at h
      have h1 : r1 ≠ [] := by
        rintro rfl
        exact hr ((hg a).nil b r h)
      rw [hf.stable p a r1 h1 hfp t]
      exact (hg a).stable r1 b r hr h t
  · intro b r h
    unfold DataFile.seq at h
    cases hfp : f [] with
    | none => rw [hfp] at h; exact absurd h (by simp)
    | some ar =>
      obtain ⟨a, r1⟩ := ar
      rw [hfp] at h
      have := hf.nil a r1 hfp
      subst this
      exact (hg a).nil b r h

theorem Nice.ret {α : Type} (a : α) : Nice (ret a) := by
  constructor
  · intro p b r hr h t
    simp only [DataFile.ret, Option.some.injEq, Prod.mk.injEq] at h ⊢
    exact ⟨h.1, by rw [h.2]⟩
  · intro b r h
    simp only [DataFile.ret, Option.some.injEq, Prod.mk.injEq] at h
    exact h.2.symm

theorem Nice.check {α : Type} (b : Bool) (a : α) : Nice (check b a) := by
  constructor
  · intro p x r hr h t
    unfold DataFile.check at h ⊢
    cases b
    · exact absurd h (by simp)
    · simp only [if_true, Option.some.injEq, Prod.mk.injEq] at h ⊢
      exact ⟨h.1, by rw [h.2]⟩
  · intro x r h
    unfold DataFile.check at h
    cases b
    · exact absurd h (by simp)
    · simp only [if_true, Option.some.injEq, Prod.mk.injEq] at h
      exact h.2.symm

theorem Nice.fail {α : Type} : Nice (fun _ => none : Rd α) :=
  ⟨fun _ _ _ _ h => absurd h (by simp), fun _ _ h => absurd h (by simp)⟩

theorem readN_succ {α : Type} (f : Rd α) (n : Nat) :
    readN f (n + 1) = DataFile.seq f fun a => DataFile.seq (readN f n) fun l => DataFile.ret (a :: l) := by
  funext s
  rw [readN]
  unfold DataFile.seq
  dsimp only
  cases f s with
  | none => rfl
  | some ar =>
    dsimp only
    cases readN f n ar.2 with
    | none => rfl
    | some lr => rfl

theorem Nice.readN {α : Type} {f : Rd α} (hf : Nice f) (n : Nat) : Nice (readN f n) := by
  induction n with
  | zero => exact Nice.ret []
  | succ n ih =>
    rw [readN_succ]
    exact hf.seq fun a => ih.seq fun l => Nice.ret _

theorem Ins.seq {α β : Type} {f : Rd α} (hf : Ins f) (g : α → Rd β) : Ins (seq f g) := by
  intro s
  unfold DataFile.seq
  rw [hf s]

theorem Ins.readN {α : Type} {f : Rd α} (hf : Ins f) (n : Nat) : Ins (readN f (n + 1)) := by
  rw [readN_succ]; exact hf.seq _

theorem Reads.seq {α β : Type} {f : Rd α} {g : α → Rd β} {w w' : Str} {a : α} {b : β} (hf : Reads f w a)
    (hg : Reads (g a) w' b) (hs : Sep w') : Reads (seq f g) (w ++ w') b := by
  intro rest hr
  unfold DataFile.seq
  rw [List.append_assoc, hf _ (sep_append (fun _ => hs) hr)]
  exact hg rest hr

theorem Reads.ret {α : Type} (a : α) : Reads (ret a) [] a := fun _ _ => rfl

theorem Reads.map {α β : Type} {f : Rd α} {w : Str} {a : α} (hf : Reads f w a) (g : α → β) :
    Reads (DataFile.seq f fun a => DataFile.ret (g a)) w (g a) := by
  intro rest hr
  unfold DataFile.seq
  rw [hf rest hr]
  rfl

theorem Reads.readN {α β : Type} {f : Rd α} (text : β → Str) (val : β → α) (l : List β)
    (h : ∀ x ∈ l, Reads f (text x) (val x) ∧ Sep (text x) ∧ text x ≠ []) :
    Reads (readN f l.length) (l.flatMap text) (l.map val) := by
  induction l with
  | nil => exact Reads.ret []
  | cons x l ih =>
    rw [List.length_cons, readN_succ, List.flatMap_cons, List.map_cons]
    refine Reads.seq (h x (by simp)).1 (Reads.map (ih fun y hy => h y (by simp [hy])) _) ?_
    exact sep_flatMap _ _ fun y hy => (h y (by simp [hy])).2

/-- On a part of its text a reader fails or reads to the end. -/
theorem weak_cut {α : Type} {f : Rd α} {w : Str} {a : α} (hn : Nice f) (hr : Reads f w a) {p : Str} (hp : p <+: w)
    (hne : p ≠ w) {b : α} {r : Str} (h : f p = some (b, r)) : r = [] := by
  by_contra hrne
  obtain ⟨t, rfl⟩ := hp
  have h1 := hn.stable p b r hrne h t
  have h2 := hr [] sep_nil
  rw [List.append_nil, h1] at h2
  simp only [Option.some.injEq, Prod.mk.injEq, List.append_eq_nil_iff] at h2
  exact hrne h2.2.1

theorem Cut.seq {α β : Type} {f : Rd α} {g : α → Rd β} {w u : Str} {a : α} (hn : Nice f) (hf : Reads f w a)
    (hg : Cut (g a) u) (hs : Sep u) (hnil : ∀ a', g a' [] = none) : Cut (seq f g) (w ++ u) := by
  intro p hp
  unfold DataFile.seq
  rcases prefix_append_cases hp with ⟨h1, h2⟩ | ⟨p', rfl, h1⟩
  · cases hfp : f p with
    | none => rfl
    | some ar =>
      obtain ⟨b, r⟩ := ar
      have := weak_cut hn hf h1 h2 hfp
      subst this
      exact hnil b
  · rw [hf p' (sep_prefix hs h1)]
    exact hg p' h1

theorem Cut.seq_left {α β : Type} {f : Rd α} {g : α → Rd β} {u : Str} (hf : Cut f u) : Cut (DataFile.seq f g) u := by
  intro p hp
  unfold DataFile.seq
  rw [hf p hp]

/-! ## Numbers -/

theorem nice_of_digits {α : Type} {f : Rd α}
    (h : ∀ s a r, f s = some (a, r) → r ≠ [] → ∀ t, f (s ++ t) = some (a, r ++ t))
    (h0 : f [] = none) : Nice f :=
  ⟨fun p a r hr hp t => h p a r hp hr t, fun a r h => by rw [h0] at h; exact absurd h (by simp)⟩

theorem digits_stable {p : Str} (h : ((readSign (p.dropWhile isSpace)).2.dropWhile isDigit) ≠ []) (t : Str) :
    readSign ((p ++ t).dropWhile isSpace) =
      ((readSign (p.dropWhile isSpace)).1, (readSign (p.dropWhile isSpace)).2 ++ t) ∧
    ((readSign (p.dropWhile isSpace)).2 ++ t).takeWhile isDigit = (readSign (p.dropWhile isSpace)).2.takeWhile isDigit ∧
    ((readSign (p.dropWhile isSpace)).2 ++ t).dropWhile isDigit = (readSign (p.dropWhile isSpace)).2.dropWhile isDigit ++ t := by
  have h1 : (readSign (p.dropWhile isSpace)).2 ≠ [] := by
    intro e; rw [e] at h; exact h rfl
  have h2 : p.dropWhile isSpace ≠ [] := by
    intro e; rw [e] at h1; exact h1 rfl
  obtain ⟨e1, -⟩ := dropWhile_stable h2 t
  obtain ⟨e2, e3⟩ := dropWhile_stable h t
  rw [e1]
  exact ⟨readSign_stable h1 t, e3, e2⟩

theorem nice_readInt : Nice (readInt : Rd Int) := by
  refine nice_of_digits ?_ (by decide)
  intro s a r h hr t
  unfold readInt at h ⊢
  dsimp only at h ⊢
  by_cases h1 : (readSign (s.dropWhile isSpace)).2.takeWhile isDigit = []
  · rw [if_pos h1] at h; exact absurd h (by simp)
  · rw [if_neg h1] at h
    by_cases hi : inInt (if (readSign (s.dropWhile isSpace)).1 = true then
        -(natValue ((readSign (s.dropWhile isSpace)).2.takeWhile isDigit) : Int)
        else (natValue ((readSign (s.dropWhile isSpace)).2.takeWhile isDigit) : Int))
    · rw [if_pos hi] at h
      simp only [Option.some.injEq, Prod.mk.injEq] at h
      have hne : (readSign (s.dropWhile isSpace)).2.dropWhile isDigit ≠ [] := by rw [h.2]; exact hr
      obtain ⟨e1, e2, e3⟩ := digits_stable hne t
      rw [e1]
      dsimp only
      rw [e2, e3, if_neg h1, if_pos hi, h.2]
      simp only [Option.some.injEq, Prod.mk.injEq, and_true]
      exact h.1
    · rw [if_neg hi] at h; exact absurd h (by simp)

theorem nice_readNat : Nice readNat := by
  refine nice_of_digits ?_ (by decide)
  intro s a r h hr t
  unfold readNat at h ⊢
  dsimp only at h ⊢
  by_cases h1 : (readSign (s.dropWhile isSpace)).2.takeWhile isDigit = []
  · rw [if_pos h1] at h; exact absurd h (by simp)
  · rw [if_neg h1] at h
    by_cases h2 : natValue ((readSign (s.dropWhile isSpace)).2.takeWhile isDigit) ≥ 2 ^ 64
    · rw [if_pos h2] at h; exact absurd h (by simp)
    · rw [if_neg h2] at h
      simp only [Option.some.injEq, Prod.mk.injEq] at h
      have hne : (readSign (s.dropWhile isSpace)).2.dropWhile isDigit ≠ [] := by rw [h.2]; exact hr
      obtain ⟨e1, e2, e3⟩ := digits_stable hne t
      rw [e1]
      dsimp only
      rw [e2, e3, if_neg h1, if_neg h2, h.2]
      simp only [Option.some.injEq, Prod.mk.injEq, and_true]
      exact h.1

theorem readFrac_stable {p : Str} (h : (readFrac p).2 ≠ []) (t : Str) :
    readFrac (p ++ t) = ((readFrac p).1, (readFrac p).2 ++ t) := by
  cases p with
  | nil => simp [readFrac] at h
  | cons c p =>
    by_cases h1 : c = '.'
    · subst h1
      change p.dropWhile isDigit ≠ [] at h
      change ((p ++ t).takeWhile isDigit, (p ++ t).dropWhile isDigit) = (p.takeWhile isDigit, p.dropWhile isDigit ++ t)
      obtain ⟨e1, e2⟩ := dropWhile_stable h t
      rw [e1, e2]
    · have hx : ∀ u : Str, readFrac (c :: u) = ([], c :: u) := by
        intro u
        unfold readFrac
        split
        · rename_i heq; simp at heq; exact absurd heq.1 h1
        · rfl
      rw [List.cons_append, hx, hx]
      rfl

theorem readExp_stable {p : Str} {e : Int} {r : Str} (h : readExp p = some (e, r)) (hr : r ≠ []) (t : Str) :
    readExp (p ++ t) = some (e, r ++ t) := by
  cases p with
  | nil => simp [readExp] at h; exact absurd h.2 hr
  | cons c p =>
    rw [List.cons_append]
    rw [readExp] at h ⊢
    by_cases hc : c = 'e' ∨ c = 'E'
    · rw [if_pos hc] at h ⊢
      dsimp only at h ⊢
      by_cases h1 : (readSign p).2.takeWhile isDigit = []
      · rw [if_pos h1] at h; exact absurd h (by simp)
      · rw [if_neg h1] at h
        simp only [Option.some.injEq, Prod.mk.injEq] at h
        have hne : (readSign p).2.dropWhile isDigit ≠ [] := by rw [h.2]; exact hr
        have h2 : (readSign p).2 ≠ [] := by
          intro e'; rw [e'] at hne; exact hne rfl
        obtain ⟨e2, e3⟩ := dropWhile_stable hne t
        rw [readSign_stable h2 t]
        dsimp only
        rw [e2, e3, if_neg h1, h.2]
        simp only [Option.some.injEq, Prod.mk.injEq, and_true]
        exact h.1
    · rw [if_neg hc] at h ⊢
      simp only [Option.some.injEq, Prod.mk.injEq] at h ⊢
      refine ⟨h.1, ?_⟩
      rw [← h.2]; rfl

theorem nice_readDec : Nice readDec := by
  refine nice_of_digits ?_ (by decide)
  intro s a r h hr t
  unfold readDec at h ⊢
  dsimp only at h ⊢
  by_cases h1 : (readSign (s.dropWhile isSpace)).2.takeWhile isDigit = [] ∧
      (readFrac ((readSign (s.dropWhile isSpace)).2.dropWhile isDigit)).1 = []
  · rw [if_pos h1] at h; exact absurd h (by simp)
  · rw [if_neg h1] at h
    cases hx : readExp (readFrac ((readSign (s.dropWhile isSpace)).2.dropWhile isDigit)).2 with
    | none => rw [hx] at h; exact absurd h (by simp)
    | some er =>
      obtain ⟨e, r'⟩ := er
      rw [hx] at h
      simp only [Option.some.injEq, Prod.mk.injEq] at h
      obtain ⟨ha, rfl⟩ := h
      have k1 : (readFrac ((readSign (s.dropWhile isSpace)).2.dropWhile isDigit)).2 ≠ [] := by
        intro e'; rw [e'] at hx; simp [readExp] at hx; exact hr hx.2
      have k2 : (readSign (s.dropWhile isSpace)).2.dropWhile isDigit ≠ [] := by
        intro e'; rw [e'] at k1; exact k1 rfl
      obtain ⟨e1, e2, e3⟩ := digits_stable k2 t
      rw [e1]
      dsimp only
      rw [e2, e3, readFrac_stable k1 t]
      dsimp only
      rw [if_neg h1, readExp_stable hx hr t]
      simp only [Option.some.injEq, Prod.mk.injEq, and_true]
      exact ha

theorem nice_readChar : Nice readChar := by
  refine nice_of_digits ?_ (by decide)
  intro s a r h hr t
  unfold readChar at h ⊢
  cases hd : s.dropWhile isSpace with
  | nil => rw [hd] at h; exact absurd h (by simp)
  | cons c u =>
    rw [hd] at h
    simp only [Option.some.injEq, Prod.mk.injEq] at h
    obtain ⟨e1, -⟩ := dropWhile_stable (q := isSpace) (p := s) (by rw [hd]; simp) t
    rw [e1, hd, ← h.1, ← h.2]
    rfl

theorem extractor_succ (n : Nat) :
    (extractor (n + 1) : Rd Label) = seq (readInt : Rd Int) fun a => seq (extractor n : Rd Label) fun l => ret (a :: l) := by
  funext s
  unfold DataFile.seq
  rw [extractor]
  cases readInt s with
  | none => rfl
  | some ar =>
    dsimp only
    cases extractor n ar.2 with
    | none => rfl
    | some lr => rfl

theorem nice_extractor (n : Nat) : Nice (extractor n : Rd Label) := by
  induction n with
  | zero => exact Nice.ret []
  | succ n ih =>
    rw [extractor_succ]
    exact nice_readInt.seq fun a => ih.seq fun l => Nice.ret _

theorem ins_readInt : Ins (readInt : Rd Int) := by
  intro s; unfold readInt; rw [dropWhile_idem]

theorem ins_readNat : Ins readNat := by
  intro s; unfold readNat; rw [dropWhile_idem]

theorem ins_readDec : Ins readDec := by
  intro s; unfold readDec; rw [dropWhile_idem]

theorem ins_readChar : Ins readChar := by
  intro s; unfold readChar; rw [dropWhile_idem]

theorem ins_extractor (n : Nat) : Ins (extractor (n + 1) : Rd Label) := by
  rw [extractor_succ]; exact ins_readInt.seq _

theorem reads_blank {α : Type} {f : Rd α} (hi : Ins f) {ws x : Str} (hw : Blank ws) (rest : Str) :
    f (ws ++ x ++ rest) = f (x ++ rest) := by
  rw [List.append_assoc, hi, dropWhile_blank hw, ← hi]

theorem ne_sign_of_digit {c : Char} (h : isDigit c = true) (s : Str) : readSign (c :: s) = (false, c :: s) := by
  have := digit_ne h
  unfold readSign
  split
  · rename_i heq; simp at heq; exact absurd heq.1 this.1
  · rename_i heq; simp at heq; exact absurd heq.1 this.2.1
  · rfl

theorem reads_nat' (n : Nat) (hn : n < 2 ^ 64) (rest : Str) (hr : NoDigit rest) :
    readNat (natStr n ++ rest) = some (n, rest) := by
  obtain ⟨c, s, hc, hd⟩ := natStr_cons n
  have h1 : (natStr n ++ rest).dropWhile isSpace = natStr n ++ rest := by
    rw [hc, List.cons_append, List.dropWhile_cons_of_neg (by rw [digit_not_space hd]; simp)]
  have h2 : readSign (natStr n ++ rest) = (false, natStr n ++ rest) := by
    rw [hc, List.cons_append, ne_sign_of_digit hd]
  obtain ⟨h3, h4⟩ := takeWhile_digits (natStr n) rest (natStr_isDigit n) hr
  unfold readNat
  rw [h1, h2]
  dsimp only
  rw [h3, h4, if_neg (natStr_ne_nil n), natStr_value, if_neg (by omega)]
  simp

theorem reads_nat (t : Tok Nat) (h : NatOK t) : Reads readNat (natText t) t.v := by
  intro rest hr
  rw [natText, reads_blank ins_readNat h.1.2]
  exact reads_nat' t.v h.2 rest (sep_noDigit hr)

theorem reads_int (t : Tok Int) (h : IntOK t) : Reads (readInt : Rd Int) (intText t) t.v := by
  intro rest hr
  rw [intText, reads_blank ins_readInt h.1.2]
  exact readInt_intStr t.v h.2 rest (sep_noDigit hr)

theorem expTail (ex : Option Expo) (hx : ExOK ex) (rest : Str) (hr : Sep rest) :
    readExp (exText ex ++ rest) =
      some (exVal ex, rest) := by
  cases ex with
  | none =>
    cases rest with
    | nil => rfl
    | cons c r =>
      have hc : isSpace c = true := hr c (by simp)
      have : ¬ (c = 'e' ∨ c = 'E') := by
        rintro (rfl | rfl) <;> exact absurd hc (by decide)
      change readExp (c :: r) = _
      rw [readExp, if_neg this]
      rfl
  | some x =>
    obtain ⟨u, sg, ds⟩ := x
    obtain ⟨hne, hd⟩ := hx _ rfl
    dsimp only at hne hd
    have hu : (if u then 'E' else 'e') = 'e' ∨ (if u then 'E' else 'e') = 'E' := by cases u <;> simp
    obtain ⟨h3, h4⟩ := takeWhile_digits ds rest hd (sep_noDigit hr)
    have hsg : readSign (signText sg ++ (ds ++ rest)) = (decide (sg = some true), ds ++ rest) := by
      match sg with
      | some true => rfl
      | some false => rfl
      | none =>
        cases ds with
        | nil => exact absurd rfl hne
        | cons c ds => exact ne_sign_of_digit (hd c (by simp)) _
    unfold exText exVal
    dsimp only
    rw [List.cons_append, readExp, if_pos hu, List.append_assoc, hsg]
    dsimp only
    rw [h3, h4, if_neg hne]
    simp only [decide_eq_true_eq]

theorem exp_noDigit (ex : Option Expo) (rest : Str) (hr : Sep rest) :
    NoDigit (exText ex ++ rest) := by
  cases ex with
  | none => exact sep_noDigit hr
  | some x =>
    obtain ⟨u, sg, ds⟩ := x
    intro c hc
    cases u <;> (simp [exText] at hc; subst hc; decide)

theorem exp_noDot (ex : Option Expo) (rest : Str) (hr : Sep rest) :
    readFrac (exText ex ++ rest) =
      ([], exText ex ++ rest) := by
  cases ex with
  | none =>
    cases rest with
    | nil => rfl
    | cons c r =>
      have hc : isSpace c = true := hr c (by simp)
      change readFrac (c :: r) = ([], c :: r)
      unfold readFrac
      split
      · rename_i heq
        simp at heq
        rw [heq.1] at hc
        exact absurd hc (by decide)
      · rfl
  | some x =>
    obtain ⟨u, sg, ds⟩ := x
    cases u <;> rfl

theorem reads_lit (l : Lit) (h : l.OK) (rest : Str) (hr : Sep rest) : readDec (l.text ++ rest) = some (l.val, rest) := by
  obtain ⟨neg, ip, fp, ex⟩ := l
  obtain ⟨hip, hfp, hne, hex⟩ := h
  dsimp only at hip hex
  have key : ∀ (tail : Str) (f : Str), NoDigit tail →
      (readFrac tail = (f, exText ex ++ rest)) → (ip ≠ [] ∨ f ≠ []) →
      (ip = [] → ∀ c ∈ tail.head?, isSpace c = false ∧ c ≠ '-' ∧ c ≠ '+') →
      readDec ((if neg then ['-'] else []) ++ (ip ++ tail)) =
        some (⟨if neg then -(natValue (ip ++ f) : Int) else natValue (ip ++ f),
          exVal ex - f.length⟩, rest) := by
    intro tail f hnd hf hnef htail
    have hhead : (ip ++ tail).dropWhile isSpace = ip ++ tail ∧ readSign (ip ++ tail) = (false, ip ++ tail) := by
      cases ip with
      | cons c ip =>
        have hd : isDigit c = true := hip c (by simp)
        exact ⟨by rw [List.cons_append, List.dropWhile_cons_of_neg (by rw [digit_not_space hd]; simp)],
          by rw [List.cons_append, ne_sign_of_digit hd]⟩
      | nil =>
        cases tail with
        | nil => exact ⟨rfl, rfl⟩
        | cons c u =>
          obtain ⟨a1, a2, a3⟩ := htail rfl c (by simp)
          refine ⟨by rw [List.nil_append, List.dropWhile_cons_of_neg (by rw [a1]; simp)], ?_⟩
          rw [List.nil_append]
          unfold readSign
          split
          · rename_i heq; simp at heq; exact absurd heq.1 a2
          · rename_i heq; simp at heq; exact absurd heq.1 a3
          · rfl
    have hsign : readSign (((if neg then ['-'] else []) ++ (ip ++ tail)).dropWhile isSpace) = (neg, ip ++ tail) := by
      cases neg with
      | false => rw [if_neg (by simp), List.nil_append, hhead.1, hhead.2]
      | true =>
        rw [if_pos rfl, List.singleton_append, List.dropWhile_cons_of_neg (by decide)]
        rfl
    obtain ⟨h3, h4⟩ := takeWhile_digits ip tail hip hnd
    unfold readDec
    rw [hsign]
    dsimp only
    rw [h3, h4, hf]
    dsimp only
    rw [if_neg (by rintro ⟨a, b⟩; rcases hnef with h | h; exacts [h a, h b]), expTail ex hex rest hr]
  unfold Lit.text Lit.val Lit.frac
  unfold Lit.frac at hfp hne
  dsimp only at hfp hne ⊢
  rw [List.append_assoc, List.append_assoc, List.append_assoc]
  cases fp with
  | none =>
    dsimp only at hne ⊢
    refine key _ [] (exp_noDigit ex rest hr) (exp_noDot ex rest hr) hne ?_
    intro h0
    rcases hne with h | h
    · exact absurd h0 h
    · exact absurd rfl h
  | some f =>
    dsimp only at hfp hne ⊢
    refine key _ f ?_ ?_ hne ?_
    · intro c hc; simp at hc; subst hc; decide
    · change ((f ++ _).takeWhile isDigit, (f ++ _).dropWhile isDigit) = _
      obtain ⟨h3, h4⟩ := takeWhile_digits f _ hfp (exp_noDigit ex rest hr)
      rw [h3, h4]
    · intro _ c hc
      simp at hc; subst hc; decide

theorem reads_num (t : Tok Lit) (h : NumOK t) : Reads readDec (numText t) t.v.val := by
  intro rest hr
  rw [numText, reads_blank ins_readDec h.1.2]
  exact reads_lit t.v h.2 rest hr

theorem sep_tok {α : Type} {t : Tok α} (h : t.OK) (s : Str) : Sep (t.ws ++ s) ∧ t.ws ++ s ≠ [] := by
  refine ⟨sep_ws h.2 h.1, ?_⟩
  intro e
  exact h.1 (List.append_eq_nil_iff.1 e).1

end Verif.DataFile
