import Verif.Cmd.Spec
/-!
# Reading command lines: lemmas
-/

namespace Verif.Cmd
open Verif.Text

theorem kind_iff (os : Str) (c : Char) : (kind os c = some false ↔ Flag os c) ∧ (kind os c = some true ↔ WithArg os c) := by
  induction os with
  | nil => simp [kind, Flag, WithArg]
  | cons a s ih =>
    by_cases hc : c = ':'
    · subst hc
      simp [kind, Flag, WithArg]
    by_cases ha : a = c
    · subst ha
      have hk : kind (a :: s) a = some (s.head? == some ':') := by simp [kind, hc]
      rw [hk]
      constructor
      · constructor
        · intro h
          exact ⟨[], s, rfl, by simp, hc, by simpa using h⟩
        · rintro ⟨x, y, h, hx, -, hy⟩
          cases x with
          | nil => simp at h; subst h; simpa using hy
          | cons b x => simp at h; simp [h.1] at hx
      · constructor
        · intro h
          have h' : s.head? = some ':' := by simpa using h
          obtain ⟨t, rfl⟩ : ∃ t, s = ':' :: t := by
            cases s with
            | nil => simp at h'
            | cons x t => simp at h'; exact ⟨t, by rw [h']⟩
          exact ⟨[], t, rfl, by simp, hc⟩
        · rintro ⟨x, y, h, hx, -⟩
          cases x with
          | nil => simp at h; subst h; simp
          | cons b x => simp at h; simp [h.1] at hx
    · have hk : kind (a :: s) c = kind s c := by simp [kind, hc, ha]
      rw [hk, ih.1, ih.2]
      constructor
      · constructor
        · rintro ⟨x, y, h, hx, h1, h2⟩
          exact ⟨a :: x, y, by simp [h], by simp [hx, Ne.symm ha], h1, h2⟩
        · rintro ⟨x, y, h, hx, h1, h2⟩
          cases x with
          | nil => simp at h; exact absurd h.1 ha
          | cons b x => simp at h hx; exact ⟨x, y, h.2, hx.2, h1, h2⟩
      · constructor
        · rintro ⟨x, y, h, hx, h1⟩
          exact ⟨a :: x, y, by simp [h], by simp [hx, Ne.symm ha], h1⟩
        · rintro ⟨x, y, h, hx, h1⟩
          cases x with
          | nil => simp at h; exact absurd h.1 ha
          | cons b x => simp at h hx; exact ⟨x, y, h.2, hx.2, h1⟩

theorem kind_mem {os : Str} {c : Char} {b : Bool} (h : kind os c = some b) : c ∈ os := by
  cases b with
  | false => obtain ⟨x, y, rfl, -⟩ := (kind_iff os c).1.1 h; simp
  | true => obtain ⟨x, y, rfl, -⟩ := (kind_iff os c).2.1 h; simp

theorem Flag.kind {os : Str} {c : Char} (h : Flag os c) : kind os c = some false := (kind_iff os c).1.2 h
theorem WithArg.kind {os : Str} {c : Char} (h : WithArg os c) : Cmd.kind os c = some true := (kind_iff os c).2.2 h
theorem Flag.mem {os : Str} {c : Char} (h : Flag os c) : c ∈ os := kind_mem h.kind
theorem WithArg.mem {os : Str} {c : Char} (h : WithArg os c) : c ∈ os := kind_mem h.kind

/-- An option as an event. -/
def ev (p : Char × Option Str) : Ev := .opt p.1 p.2

theorem cluster_flags {os : Str} {fs : Str} (h : ∀ f ∈ fs, Flag os f) (cs : Str) :
    cluster os (fs ++ cs) = ((plainOpts fs).map ev ++ (cluster os cs).1, (cluster os cs).2) := by
  induction fs with
  | nil => rfl
  | cons f fs ih =>
    have hf := (h f (by simp)).kind
    rw [List.cons_append, cluster, hf]
    simp only [ih fun g hg => h g (by simp [hg])]
    rfl

theorem getopt_dash {os : Str} {c : Char} {cs : Str} (h : ¬ (c = '-' ∧ cs = [])) (l : List Str) : getopt os none (('-' :: c :: cs) :: l) =
    ((cluster os (c :: cs)).1 ++ (getopt os (cluster os (c :: cs)).2 l).1, (getopt os (cluster os (c :: cs)).2 l).2) := by
  rw [getopt, if_neg]
  simpa using h

theorem getopt_operand {os : Str} {s : Str} (h : s.head? ≠ some '-' ∨ s = ['-']) (l : List Str) :
    getopt os none (s :: l) = ((getopt os none l).1, s :: (getopt os none l).2) := by
  have h1 : s ≠ ['-', '-'] := by
    rcases h with h | h <;> rintro rfl <;> simp at h
  rw [getopt, if_neg h1]
  rintro c cs rfl
  rcases h with h | h <;> simp at h

theorem getopt_piece {os : Str} (hos : '-' ∉ os) {p : Piece} (h : p.OK os) (l : List Str) :
    getopt os none (p.words ++ l) = (p.options.map ev ++ (getopt os none l).1, p.operands ++ (getopt os none l).2) := by
  cases p with
  | flags fs =>
    obtain ⟨hne, hf⟩ := h
    obtain ⟨f, t, rfl⟩ := List.exists_cons_of_ne_nil hne
    have : ¬ (f = '-' ∧ t = []) := fun e => hos (e.1 ▸ (hf f (by simp)).mem)
    simp only [Piece.words, List.cons_append, List.nil_append, getopt_dash this, Piece.options, Piece.operands]
    have e := cluster_flags hf []
    rw [List.append_nil] at e
    rw [e]
    simp [cluster]
  | glued fs c arg =>
    obtain ⟨hf, hc, ha⟩ := h
    have hcl : cluster os (fs ++ c :: arg) = ((plainOpts fs).map ev ++ [.opt c (some arg)], none) := by
      rw [cluster_flags hf, cluster, hc.kind]
      simp [ha]
    simp only [Piece.words, List.cons_append, List.nil_append, Piece.options, Piece.operands]
    cases fs with
    | nil =>
      have : ¬ (c = '-' ∧ arg = []) := fun e => ha e.2
      rw [List.nil_append] at hcl ⊢
      rw [getopt_dash this, hcl]
      simp [ev]
    | cons f t =>
      have : ¬ (f = '-' ∧ t ++ c :: arg = []) := fun e => hos (e.1 ▸ (hf f (by simp)).mem)
      rw [List.cons_append] at hcl ⊢
      rw [getopt_dash this, hcl]
      simp [ev]
  | apart fs c arg =>
    obtain ⟨hf, hc⟩ := h
    have hcl : cluster os (fs ++ [c]) = ((plainOpts fs).map ev, some c) := by
      rw [cluster_flags hf, cluster, hc.kind]
      simp
    simp only [Piece.words, List.cons_append, List.nil_append, Piece.options, Piece.operands]
    cases fs with
    | nil =>
      have : ¬ (c = '-' ∧ ([] : Str) = []) := fun e => hos (e.1 ▸ hc.mem)
      rw [List.nil_append] at hcl ⊢
      rw [getopt_dash this, hcl]
      simp [getopt, ev]
    | cons f t =>
      have : ¬ (f = '-' ∧ t ++ [c] = []) := fun e => hos (e.1 ▸ (hf f (by simp)).mem)
      rw [List.cons_append] at hcl ⊢
      rw [getopt_dash this, hcl]
      simp [getopt, ev]
  | operand s =>
    simp only [Piece.words, List.cons_append, List.nil_append, Piece.options, Piece.operands]
    rw [getopt_operand h]
    simp

theorem getopt_pieces {os : Str} (hos : '-' ∉ os) (ps : List Piece) (h : ∀ p ∈ ps, p.OK os) (l : List Str) :
    getopt os none (ps.flatMap Piece.words ++ l) =
      ((ps.flatMap Piece.options).map ev ++ (getopt os none l).1, ps.flatMap Piece.operands ++ (getopt os none l).2) := by
  induction ps with
  | nil => simp
  | cons p ps ih =>
    rw [List.flatMap_cons, List.append_assoc, getopt_piece hos (h p (by simp)), ih fun q hq => h q (by simp [hq])]
    simp [List.flatMap_cons]

/-- **C122.** What `getopt` reports for a command line: the options with their arguments, in order, and the operands, in order. -/
theorem getopt_reads {os : Str} (hos : '-' ∉ os) (l : Line) (h : l.OK os) : getopt os none l.words = (l.options.map ev, l.operands) := by
  obtain ⟨ps, tail⟩ := l
  have key := getopt_pieces hos ps h
  cases tail with
  | none =>
    have := key []
    simpa [Line.words, Line.options, Line.operands, getopt] using this
  | some t =>
    have := key (['-', '-'] :: t)
    simpa [Line.words, Line.options, Line.operands, getopt] using this

/-- Whether all events are options. -/
def Ev.good : Ev → Prop
  | .opt _ _ => True
  | _ => False

theorem cluster_inv {os : Str} (cs : Str) (h : ∀ e ∈ (cluster os cs).1, e.good) :
    (∃ fs, (∀ f ∈ fs, Flag os f) ∧ cs = fs ∧ (cluster os cs).2 = none) ∨
    (∃ fs c arg, (∀ f ∈ fs, Flag os f) ∧ WithArg os c ∧ arg ≠ [] ∧ cs = fs ++ c :: arg ∧ (cluster os cs).2 = none) ∨
    (∃ fs c, (∀ f ∈ fs, Flag os f) ∧ WithArg os c ∧ cs = fs ++ [c] ∧ (cluster os cs).2 = some c) := by
  induction cs with
  | nil => exact .inl ⟨[], by simp, rfl, rfl⟩
  | cons c cs ih =>
    rw [cluster] at h ⊢
    cases hk : kind os c with
    | none => rw [hk] at h; exact absurd (h (.unknown c) (by simp)) (by simp [Ev.good])
    | some b =>
      cases b with
      | false =>
        rw [hk] at h
        have hc := (kind_iff os c).1.1 hk
        have h' : ∀ e ∈ (cluster os cs).1, e.good := fun e he => h e (by simp [he])
        rcases ih h' with ⟨fs, h1, h2, h3⟩ | ⟨fs, d, arg, h1, h2, h3, h4, h5⟩ | ⟨fs, d, h1, h2, h3, h4⟩
        · exact .inl ⟨c :: fs, by simpa [hc] using h1, by rw [h2], h3⟩
        · exact .inr (.inl ⟨c :: fs, d, arg, by simpa [hc] using h1, h2, h3, by simp [h4], h5⟩)
        · exact .inr (.inr ⟨c :: fs, d, by simpa [hc] using h1, h2, by simp [h3], h4⟩)
      | true =>
        have hc := (kind_iff os c).2.1 hk
        by_cases e : cs = []
        · subst e
          exact .inr (.inr ⟨[], c, by simp, hc, rfl, by simp⟩)
        · exact .inr (.inl ⟨[], c, cs, by simp, hc, e, rfl, by simp [e]⟩)

/-- **C122.** Every command line without unknown options and missing arguments is written in this way. -/
theorem getopt_only {os : Str} (argv : List Str) (h : ∀ e ∈ (getopt os none argv).1, e.good) : ∃ l : Line, l.OK os ∧ l.words = argv := by
  generalize hn : argv.length = n
  induction n using Nat.strongRecOn generalizing argv with
  | _ n ih =>
    cases argv with
    | nil => exact ⟨⟨[], none⟩, by simp [Line.OK], rfl⟩
    | cons a rest =>
      have cons : ∀ (p : Piece), p.OK os → ∀ rest', (∀ e ∈ (getopt os none rest').1, e.good) → rest'.length < n → p.words ++ rest' = a :: rest →
          ∃ l : Line, l.OK os ∧ l.words = a :: rest := by
        intro p hp rest' hg hl hw
        obtain ⟨l, hl1, hl2⟩ := ih _ hl rest' hg rfl
        refine ⟨⟨p :: l.pieces, l.tail⟩, ?_, ?_⟩
        · intro q hq
          rcases List.mem_cons.1 hq with rfl | hq
          · exact hp
          · exact hl1 q hq
        · rw [← hw, ← hl2]
          simp [Line.words]
      have hlen : rest.length < n := by rw [← hn]; simp
      by_cases hd : a = ['-', '-']
      · subst hd
        exact ⟨⟨[], some rest⟩, by simp [Line.OK], by simp [Line.words]⟩
      · by_cases ho : a.head? ≠ some '-' ∨ a = ['-']
        · rw [getopt_operand ho] at h
          exact cons (.operand a) ho rest h hlen rfl
        · obtain ⟨c, cs, rfl⟩ : ∃ c cs, a = '-' :: c :: cs := by
            cases a with
            | nil => simp at ho
            | cons x t =>
              cases t with
              | nil => simp at ho
              | cons c cs => simp at ho; exact ⟨c, cs, by rw [ho]⟩
          have hne : ¬ (c = '-' ∧ cs = []) := by simpa using hd
          rw [getopt_dash hne] at h
          have hcl : ∀ e ∈ (cluster os (c :: cs)).1, e.good := fun e he => h e (by simp [he])
          have hrest : ∀ e ∈ (getopt os (cluster os (c :: cs)).2 rest).1, e.good := fun e he => h e (by simp [he])
          rcases cluster_inv _ hcl with ⟨fs, h1, h2, h3⟩ | ⟨fs, d, arg, h1, h2, h3, h4, h5⟩ | ⟨fs, d, h1, h2, h3, h4⟩
          · rw [h3] at hrest
            exact cons (.flags (c :: cs)) ⟨by simp, h2 ▸ h1⟩ rest hrest hlen rfl
          · rw [h5] at hrest
            exact cons (.glued fs d arg) ⟨h1, h2, h3⟩ rest hrest hlen (by simp [Piece.words, h4])
          · rw [h4] at hrest
            cases rest with
            | nil => exact absurd (hrest (.missing d) (by simp [getopt])) (by simp [Ev.good])
            | cons b rest =>
              rw [getopt] at hrest
              exact cons (.apart fs d b) ⟨h1, h2⟩ rest (fun e he => hrest e (by simp [he])) (by simp at hlen; omega) (by simp [Piece.words, h3])

end Verif.Cmd
